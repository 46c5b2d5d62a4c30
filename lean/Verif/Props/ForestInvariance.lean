/-
C166: two surrogates whose variances differ by a factor, or by little if the splits are clear, lead to the same forest and the same region.
-/
import Verif.Props.Stability
import Verif.Props.ForestFull

namespace PyPDP
open Spec

section generic
variable {K : Type} [Field K] [LinearOrder K] [IsStrictOrderedRing K]

omit [Field K] [LinearOrder K] [IsStrictOrderedRing K] in
theorem sublist_eq_filter {α : Type} [DecidableEq α] {l s : List α} (hnd : l.Nodup) (h : s.Sublist l) : s = l.filter fun a => decide (a ∈ s) := by
  induction h with
  | slnil => rfl
  | @cons s l a h ih =>
    have hn := List.nodup_cons.1 hnd
    rw [List.filter_cons, if_neg (by simpa using fun hm => hn.1 (h.subset hm))]
    exact ih hn.2
  | @cons_cons s l a h ih =>
    have hn := List.nodup_cons.1 hnd
    rw [List.filter_cons, if_pos (by simp)]
    congr 1
    conv_lhs => rw [ih hn.2]
    refine List.filter_congr fun b hb => ?_
    have : b ≠ a := fun e => hn.1 (e ▸ hb)
    simp [this]

omit [IsStrictOrderedRing K] in
/-- the hyperparameters of a tree are determined by the draw -/
theorem IsForestTree.possible_unique {p p' : RF K} (hnd : p.possible.Nodup) (e : p'.possible = p.possible) {own own' : List (Curve K)} {N mp P : Nat}
    {d : Int} {w : ForestDraw} {t t' : DT K} (h : IsForestTree p own N mp P d w t) (h' : IsForestTree p' own' N mp P d w t') : t'.possible = t.possible := by
  by_cases hm : ∃ j : Nat, w.mask[j]? = some true
  · have hmem : ∀ hp, hp ∈ t'.possible ↔ hp ∈ t.possible := by
      intro hp
      have key : hp ∈ p.possible → (hp ∈ t'.possible ↔ hp ∈ t.possible) := by
        intro hpm
        obtain ⟨j, hj⟩ := List.mem_iff_getElem?.1 hpm
        rw [h.splits_mask hm j hp hj, h'.splits_mask hm j hp (by rw [e]; exact hj)]
      exact ⟨fun hx => (key (by rw [← e]; exact h'.splits_sub.subset hx)).1 hx, fun hx => (key (h.splits_sub.subset hx)).2 hx⟩
    have s' : t'.possible.Sublist p.possible := by rw [← e]; exact h'.splits_sub
    classical
    have f1 := sublist_eq_filter hnd h.splits_sub
    have f2 := sublist_eq_filter hnd s'
    rw [f1, f2]
    exact List.filter_congr fun a _ => by simp [hmem a]
  · obtain ⟨hp, h1, h2⟩ := h.splits_choice fun j hj => hm ⟨j, hj⟩
    obtain ⟨hp', h1', h2'⟩ := h'.splits_choice fun j hj => hm ⟨j, hj⟩
    rw [e, h1] at h1'
    rw [h2, h2', Option.some.inj h1']

omit [Field K] [LinearOrder K] [IsStrictOrderedRing K] in
theorem roots_related {Rc : Curve K → Curve K → Prop} {own own' : List (Curve K)} (h : List.Forall₂ Rc own own') {idx : List Nat} {A B : List (Curve K)}
    (ha : List.Forall₂ (fun i c => own[i]? = some c) idx A) (hb : List.Forall₂ (fun i c => own'[i]? = some c) idx B) : List.Forall₂ Rc A B := by
  induction ha generalizing B with
  | nil => cases hb; exact .nil
  | @cons i c idx A hc _ ih =>
    cases hb with
    | cons hc' hb' =>
      refine .cons ?_ (ih hb')
      obtain ⟨h1, e1⟩ := List.getElem?_eq_some_iff.1 hc
      obtain ⟨h2, e2⟩ := List.getElem?_eq_some_iff.1 hc'
      rw [← e1, ← e2]
      exact (List.forall₂_iff_get.1 h).2 i h1 h2

/-- Two trees of the same draw before the splits are compared: the same space, hyperparameters and conditions, related curves. -/
structure TreePair (Rc : Curve K → Curve K → Prop) (cs : ConfigSpace K) (P : Nat) (maxDepth : Int) (t t' : DT K) : Prop where
  space : t.cfg.space = cs
  space' : t'.cfg.space = cs
  possible : t'.possible = t.possible
  root : SameCut (List.Forall₂ Rc) t.root t'.root
  leaves : Greedy cs t.possible 100 1 P maxDepth t.root t.leaves
  leaves' : Greedy cs t.possible 100 1 P maxDepth t'.root t'.leaves

theorem forest_trees [Transc K] {space : ConfigSpace K} (hwf : space.WF) {predict predict' : Predict K} {mu sd mu' sd' : List K → K}
    (hp : RowWise space.length predict mu sd) (hp' : RowWise space.length predict' mu' sd') {Rc : Curve K → Curve K → Prop}
    {samples : List (List K)} (hrows : ∀ r ∈ samples, r.length = space.length) (hs : samples ≠ [])
    (hRc : ∀ idx grid, ∀ r ∈ samples, Rc (curveAt idx grid mu sd r) (curveAt idx grid mu' sd' r))
    {sel : Selection K} {perAxis numSplits minPoints : Nat} (hg : 1 ≤ perAxis) {f : RF K}
    (h : rfInit space predict sel samples perAxis numSplits minPoints = .ok f)
    (hne : f.cfg.selected ≠ []) (hmem : ∀ hp ∈ f.cfg.selected, hp ∈ space) (hd : (f.cfg.selected.map Hp.name).Nodup)
    {numTrees maxDepth size : Int} (ht : 0 < numTrees) (hdep : 0 < maxDepth) (hsz : 0 < size) {draw : Nat → ForestDraw}
    (hw : ∀ k : Nat, (k : Int) < numTrees → ValidDraw f size.toNat (draw k)) :
    ∃ f' trees trees', rfInit space predict' sel samples perAxis numSplits minPoints = .ok f' ∧ f'.possible = f.possible ∧
      (rfPartition f numTrees maxDepth (some size) draw).2 = .ok () ∧ (rfPartition f' numTrees maxDepth (some size) draw).2 = .ok () ∧
      (rfPartition f numTrees maxDepth (some size) draw).1.trees = some trees ∧
      (rfPartition f' numTrees maxDepth (some size) draw).1.trees = some trees' ∧
      (trees.length : Int) = numTrees ∧
      List.Forall₂ (TreePair Rc space (perAxis ^ f.cfg.selected.length) maxDepth) trees trees' ∧
      ∀ {ofVector : List K → Config K}, (∀ r ∈ samples, HasNumbers f.possible (ofVector r)) → ∀ {inc : Config K},
        HasNumbers f.possible inc → (∀ hp ∈ f.possible, hp.isNumerical = true) →
        List.Forall₂ (fun t t' => List.Forall₂ (fun m m' : Node K => m'.conds = m.conds) t.leaves t'.leaves) trees trees' → ∀ overlap : Option Int,
        ∃ R R', rfIncumbentRegion ofVector (rfPartition f numTrees maxDepth (some size) draw).1 inc overlap = .ok R ∧
          rfIncumbentRegion ofVector (rfPartition f' numTrees maxDepth (some size) draw).1 inc overlap = .ok R' ∧
          List.Forall₂ Rc (curves R) (curves R') := by
  obtain ⟨hv, -, e3, e2, e4, -, -⟩ := C66_new hwf hrows h hne hmem hd
  have hinit := h
  unfold rfInit at hinit
  obtain ⟨c, hc, hf⟩ := Py.bind_eq_ok.1 hinit
  have hice : f.ice = none := by rw [← Except.ok.inj hf]
  have hpred : f.cfg.predict = predict := by
    rw [← Except.ok.inj hf]
    exact (algorithmInit_eq hc).2.2.2.2.1
  have hf' : rfInit space predict' sel samples perAxis numSplits minPoints = .ok { f with cfg := { f.cfg with predict := predict' } } := by
    rw [← Except.ok.inj hf]
    unfold algorithmInit at hc
    obtain ⟨S, hS, hc⟩ := Py.bind_eq_ok.1 hc
    rw [← Except.ok.inj hc]
    unfold rfInit algorithmInit
    rw [hS]
    rfl
  obtain ⟨f', ef⟩ : ∃ f' : RF K, f' = { f with cfg := { f.cfg with predict := predict' } } := ⟨_, rfl⟩
  rw [← ef] at hf'
  have s1 : f'.cfg.selected = f.cfg.selected := by rw [ef]
  have s2 : f'.possible = f.possible := by rw [ef]
  have s3 : f'.ice = none := by rw [ef]; exact hice
  have s4 : f'.cfg.predict = predict' := by rw [ef]
  obtain ⟨hv', -, e3', e2', e4', -, -⟩ := C66_new hwf hrows hf' (by rw [s1]; exact hne) (by rw [s1]; exact hmem) (by rw [s1]; exact hd)
  have hw' : ∀ k : Nat, (k : Int) < numTrees → ValidDraw f' size.toNat (draw k) := fun k hk => by
    have := hw k hk
    exact ⟨this.size, by rw [e3', ← e3]; exact this.range, by rw [s2]; exact this.mask, by rw [s2]; exact this.choice⟩
  have hmu : RowWise f.cfg.space.length f.cfg.predict mu sd := by rw [e2, hpred]; exact hp
  have hmu' : RowWise f'.cfg.space.length f'.cfg.predict mu' sd' := by rw [e2', s4]; exact hp'
  obtain ⟨own, trees, i, a1, -, -, a4, -, a6, a7⟩ := C66_partition hv hmu (by rw [e3]; exact hs) (by rw [e4]; exact hg) ht hdep hsz hw
  obtain ⟨own', trees', i', b1, -, -, b4, -, b6, b7⟩ := C66_partition hv' hmu' (by rw [e3']; exact hs) (by rw [e4']; exact hg) ht hdep hsz hw'
  have hrel : List.Forall₂ Rc (dataCurves own) (dataCurves own') := by
    obtain ⟨idx, hidx, -⟩ := hv.cfg.idx
    obtain ⟨grid, hgr, -⟩ := C40_grid (K := K) (List.length_pos_iff.2 hne) perAxis
    obtain ⟨o, o1, -, o3⟩ := calcNow_curves hv.cfg hv.not_centered hmu (by rw [e3]; exact hs) (by rw [e4]; exact hg) hidx (by rw [e4]; exact hgr)
    obtain ⟨o', o1', -, o3'⟩ := calcNow_curves hv'.cfg hv'.not_centered hmu' (by rw [e3']; exact hs) (by rw [e4']; exact hg)
      (by rw [s1, e2', ← e2]; exact hidx) (by rw [s1, e4']; exact hgr)
    rw [a1] at o1
    rw [b1] at o1'
    obtain rfl := Except.ok.inj o1
    obtain rfl := Except.ok.inj o1'
    rw [o3, o3', e3, e3']
    clear * - hRc
    induction samples with
    | nil => exact .nil
    | cons r rs ih => exact .cons (hRc idx grid r (by simp)) (ih fun idx grid r' hr' => hRc idx grid r' (by simp [hr']))
  have hnd : f.possible.Nodup := by
    rw [hv.possible, e2]
    exact List.Nodup.filter _ (List.Nodup.of_map _ hwf)
  refine ⟨f', trees, trees', hf', s2, by rw [a4], by rw [b4], by rw [a4], by rw [b4], a6, ?_, ?_⟩
  · rw [List.forall₂_iff_get]
    refine ⟨by omega, fun k h1 h2 => ?_⟩
    have ta := (a7 k _ (List.getElem?_eq_getElem h1)).2
    have tb := (b7 k _ (List.getElem?_eq_getElem h2)).2
    have hposs := IsForestTree.possible_unique hnd s2 ta (by rw [s1, e4', ← e4] at tb; exact tb)
    have la := ta.leaves
    have lb := tb.leaves
    rw [e2, e4] at la
    rw [e2', e4', s1, hposs] at lb
    exact ⟨by rw [List.get_eq_getElem, ta.space, e2], by rw [List.get_eq_getElem, tb.space, e2'], hposs,
      ⟨by rw [List.get_eq_getElem, List.get_eq_getElem, ta.depth, tb.depth], by rw [List.get_eq_getElem, List.get_eq_getElem, ta.conds, tb.conds],
        roots_related hrel ta.root tb.root⟩, la, lb⟩
  · intro ofVector hof inc hinc hnum hleaves overlap
    obtain ⟨_, _, R, x1, x2, -, x4, x5⟩ := C69_after_partition hv hice hnum hmu (by rw [e3]; exact hs) (by rw [e4]; exact hg) ht hdep hsz hw
      (ofVector := ofVector) (by rw [e3]; exact hof) hinc overlap
    obtain ⟨_, _, R', y1, y2, -, y4, y5⟩ := C69_after_partition hv' s3 (by rw [s2]; exact hnum) hmu' (by rw [e3']; exact hs) (by rw [e4']; exact hg)
      ht hdep hsz hw' (ofVector := ofVector) (by rw [e3', s2]; exact hof) (by rw [s2]; exact hinc) overlap
    rw [a1] at x1
    rw [b1] at y1
    rw [a4] at x2
    rw [b4] at y2
    obtain rfl := Except.ok.inj x1
    obtain rfl := Except.ok.inj y1
    obtain rfl := Option.some.inj x2
    obtain rfl := Option.some.inj y2
    refine ⟨R, R', x4, y4, ?_⟩
    rw [x5, y5, e3, e3']
    have hvotes : ∀ a b, votes trees' a b = votes trees a b := by
      intro a b
      have hsp : List.Forall₂ (fun t t' : DT K => t'.cfg.space = t.cfg.space ∧
          List.Forall₂ (fun m m' : Node K => m'.conds = m.conds) t.leaves t'.leaves) trees trees' := by
        rw [List.forall₂_iff_get] at hleaves ⊢
        refine ⟨hleaves.1, fun k h1 h2 => ⟨?_, hleaves.2 k h1 h2⟩⟩
        rw [List.get_eq_getElem, List.get_eq_getElem, (a7 k _ (List.getElem?_eq_getElem h1)).2.space, (b7 k _ (List.getElem?_eq_getElem h2)).2.space,
          e2, e2']
      unfold votes
      clear * - hsp
      induction hsp with
      | nil => rfl
      | @cons t t' _ _ hab _ ih =>
        rw [List.countP_cons, List.countP_cons, ih]
        have : SharesLeaf t' a b ↔ SharesLeaf t a b := by
          unfold SharesLeaf
          rw [hab.1]
          refine ⟨fun ⟨l, hl, h⟩ => ?_, fun ⟨l, hl, h⟩ => ?_⟩
          · obtain ⟨m, hm, e⟩ := forall₂_partner hab.2.flip hl
            rw [e] at h
            exact ⟨m, hm, h⟩
          · obtain ⟨m, hm, e⟩ := forall₂_partner hab.2 hl
            rw [← e] at h
            exact ⟨m, hm, h⟩
        by_cases hsl : SharesLeaf t a b
        · have hsl' := this.2 hsl
          simp [hsl, hsl']
        · have hsl' : ¬ SharesLeaf t' a b := fun h => hsl (this.1 h)
          simp [hsl, hsl']
    simp only [hvotes]
    clear * - hrel
    generalize dataCurves own = A at hrel
    generalize dataCurves own' = B at hrel
    induction hrel generalizing samples with
    | nil => simp
    | cons hab _ ih =>
      cases samples with
      | nil => simp
      | cons r rs =>
        simp only [List.zip_cons_cons, List.filter_cons]
        split
        · exact .cons hab ih
        · exact ih

omit [Field K] [LinearOrder K] [IsStrictOrderedRing K] in
theorem related_rows {Rc : Curve K → Curve K → Prop} (hR : ∀ c c', Rc c c' → c'.1 = c.1) {A B : List (Curve K)} (h : List.Forall₂ Rc A B) :
    B.map Prod.fst = A.map Prod.fst := by
  induction h with
  | nil => rfl
  | cons hab _ ih => rw [List.map_cons, List.map_cons, ih, hR _ _ hab]

/-- **C166** Two surrogates that predict row by row and whose variances differ by one positive factor, the same samples, options and draws: the
trees of the two forests may be split along the same hyperparameters, have leaves with the same conditions and the same samples, and for every
configuration and every required overlap `get_incumbent_region` of the two forests holds the curves of the same samples. -/
theorem C166_scaled [Transc K] {space : ConfigSpace K} (hwf : space.WF) {predict predict' : Predict K} {mu sd mu' sd' : List K → K}
    (hp : RowWise space.length predict mu sd) (hp' : RowWise space.length predict' mu' sd') {a : K} (ha : 0 < a)
    (hsd : ∀ r : List K, r.length = space.length → sd' r ^ 2 = a * sd r ^ 2)
    {samples : List (List K)} (hrows : ∀ r ∈ samples, r.length = space.length) (hs : samples ≠ [])
    {sel : Selection K} {perAxis numSplits minPoints : Nat} (hg : 1 ≤ perAxis) {f : RF K}
    (h : rfInit space predict sel samples perAxis numSplits minPoints = .ok f)
    (hne : f.cfg.selected ≠ []) (hmem : ∀ hp ∈ f.cfg.selected, hp ∈ space) (hd : (f.cfg.selected.map Hp.name).Nodup)
    {numTrees maxDepth size : Int} (ht : 0 < numTrees) (hdep : 0 < maxDepth) (hsz : 0 < size) {draw : Nat → ForestDraw}
    (hw : ∀ k : Nat, (k : Int) < numTrees → ValidDraw f size.toNat (draw k)) :
    ∃ f' trees trees', rfInit space predict' sel samples perAxis numSplits minPoints = .ok f' ∧
      (rfPartition f numTrees maxDepth (some size) draw).2 = .ok () ∧ (rfPartition f' numTrees maxDepth (some size) draw).2 = .ok () ∧
      (rfPartition f numTrees maxDepth (some size) draw).1.trees = some trees ∧
      (rfPartition f' numTrees maxDepth (some size) draw).1.trees = some trees' ∧ (trees.length : Int) = numTrees ∧
      List.Forall₂ (fun t t' => t'.possible = t.possible ∧
        List.Forall₂ (fun m m' => m'.depth = m.depth ∧ m'.conds = m.conds ∧ m'.x = m.x) t.leaves t'.leaves) trees trees' ∧
      ∀ {ofVector : List K → Config K}, (∀ r ∈ samples, HasNumbers f.possible (ofVector r)) → ∀ {inc : Config K},
        HasNumbers f.possible inc → (∀ hp ∈ f.possible, hp.isNumerical = true) → ∀ overlap : Option Int,
        ∃ R R', rfIncumbentRegion ofVector (rfPartition f numTrees maxDepth (some size) draw).1 inc overlap = .ok R ∧
          rfIncumbentRegion ofVector (rfPartition f' numTrees maxDepth (some size) draw).1 inc overlap = .ok R' ∧
          (curves R').map Prod.fst = (curves R).map Prod.fst := by
  obtain ⟨f', trees, trees', h1, -, h3, h4, h5, h6, h7, h8, h9⟩ := forest_trees hwf hp hp' (Rc := ScaledVar a) hrows hs (fun idx grid r hr => by
    refine ⟨rfl, ?_⟩
    simp only [curveAt, List.map_map]
    refine List.map_congr_left fun t _ => ?_
    simp only [Function.comp]
    exact hsd _ (by rw [assignRow_length]; exact hrows r hr)) hg h hne hmem hd ht hdep hsz hw
  have key : List.Forall₂ (fun t t' => t'.possible = t.possible ∧
        List.Forall₂ (fun m m' => m'.depth = m.depth ∧ m'.conds = m.conds ∧ m'.x = m.x) t.leaves t'.leaves) trees trees' := by
    refine h8.imp fun t t' tp => ⟨tp.possible, ?_⟩
    refine forall₂_mem ((indist_scaled ha).greedy hwf tp.leaves tp.leaves' tp.root) fun m m' hm hm' hc => ⟨hc.depth, hc.conds, ?_⟩
    rw [← (tp.leaves.shapes m hm).map_x, ← (tp.leaves'.shapes m' hm').map_x]
    exact related_rows (fun _ _ hc => hc.1) hc.curves
  refine ⟨f', trees, trees', h1, h3, h4, h5, h6, h7, key, fun hof inc hinc hnum overlap => ?_⟩
  obtain ⟨R, R', r1, r2, r3⟩ := h9 hof hinc hnum (key.imp fun t t' h => h.2.imp fun m m' h => h.2.1) overlap
  exact ⟨R, R', r1, r2, related_rows (fun _ _ hc => hc.1) r3⟩

/-- **C166** Variances that differ by at most `ε`: if every split of every tree of the first forest was clearly the best, the same holds. -/
theorem C166_stable [Transc K] {space : ConfigSpace K} (hwf : space.WF) {predict predict' : Predict K} {mu sd mu' sd' : List K → K}
    (hp : RowWise space.length predict mu sd) (hp' : RowWise space.length predict' mu' sd') {ε V : K}
    (hsd : ∀ r : List K, r.length = space.length → sd r ^ 2 ≤ V ∧ |sd' r ^ 2 - sd r ^ 2| ≤ ε)
    {samples : List (List K)} (hrows : ∀ r ∈ samples, r.length = space.length) (hs : samples ≠ [])
    {sel : Selection K} {perAxis numSplits minPoints : Nat} (hg : 1 ≤ perAxis) {f : RF K}
    (h : rfInit space predict sel samples perAxis numSplits minPoints = .ok f)
    (hne : f.cfg.selected ≠ []) (hmem : ∀ hp ∈ f.cfg.selected, hp ∈ space) (hd : (f.cfg.selected.map Hp.name).Nodup)
    {numTrees maxDepth size : Int} (ht : 0 < numTrees) (hdep : 0 < maxDepth) (hsz : 0 < size) {draw : Nat → ForestDraw}
    (hw : ∀ k : Nat, (k : Int) < numTrees → ValidDraw f size.toNat (draw k)) {trees : List (DT K)}
    (htrees : (rfPartition f numTrees maxDepth (some size) draw).1.trees = some trees)
    (hclear : ∀ t ∈ trees, ClearTree space t.possible 100 1 (perAxis ^ f.cfg.selected.length) (4 * ε * (V + ε)) maxDepth t.root t.leaves) :
    ∃ f' trees', rfInit space predict' sel samples perAxis numSplits minPoints = .ok f' ∧
      (rfPartition f numTrees maxDepth (some size) draw).2 = .ok () ∧ (rfPartition f' numTrees maxDepth (some size) draw).2 = .ok () ∧
      (rfPartition f' numTrees maxDepth (some size) draw).1.trees = some trees' ∧ (trees.length : Int) = numTrees ∧
      List.Forall₂ (fun t t' => t'.possible = t.possible ∧
        List.Forall₂ (fun m m' => m'.depth = m.depth ∧ m'.conds = m.conds ∧ m'.x = m.x) t.leaves t'.leaves) trees trees' ∧
      ∀ {ofVector : List K → Config K}, (∀ r ∈ samples, HasNumbers f.possible (ofVector r)) → ∀ {inc : Config K},
        HasNumbers f.possible inc → (∀ hp ∈ f.possible, hp.isNumerical = true) → ∀ overlap : Option Int,
        ∃ R R', rfIncumbentRegion ofVector (rfPartition f numTrees maxDepth (some size) draw).1 inc overlap = .ok R ∧
          rfIncumbentRegion ofVector (rfPartition f' numTrees maxDepth (some size) draw).1 inc overlap = .ok R' ∧
          (curves R').map Prod.fst = (curves R).map Prod.fst := by
  have hrow0 : (List.replicate space.length (0 : K)).length = space.length := List.length_replicate
  have hV : 0 ≤ V := (sq_nonneg _).trans (hsd _ hrow0).1
  have hε : 0 ≤ ε := (abs_nonneg _).trans (hsd _ hrow0).2
  obtain ⟨f', trees0, trees', h1, -, h3, h4, h5, h6, h7, h8, h9⟩ := forest_trees hwf hp hp' (Rc := NearVar ε V) hrows hs (fun idx grid r hr => by
    have key : ∀ q : Nat, 0 ≤ (curveAt idx grid mu sd r).2.2.getD q 0 ∧ (curveAt idx grid mu sd r).2.2.getD q 0 ≤ V ∧
        |(curveAt idx grid mu' sd' r).2.2.getD q 0 - (curveAt idx grid mu sd r).2.2.getD q 0| ≤ ε := by
      intro q
      simp only [curveAt, List.getD_eq_getElem?_getD, List.getElem?_map]
      cases hq : grid[q]? with
      | none => simpa using ⟨hV, hε⟩
      | some t =>
        simp only [Option.map_some, Option.getD_some]
        have hl : (assignRow idx t r).length = space.length := by rw [assignRow_length]; exact hrows r hr
        exact ⟨sq_nonneg _, hsd _ hl⟩
    exact ⟨rfl, by simp [curveAt], fun q => (key q).1, fun q => (key q).2.1, fun q => (key q).2.2⟩) hg h hne hmem hd ht hdep hsz hw
  rw [htrees] at h5
  obtain rfl := Option.some.inj h5
  have key : List.Forall₂ (fun t t' => t'.possible = t.possible ∧
        List.Forall₂ (fun m m' => m'.depth = m.depth ∧ m'.conds = m.conds ∧ m'.x = m.x) t.leaves t'.leaves) trees trees' := by
    refine forall₂_mem h8 fun t t' htm _ tp => ⟨tp.possible, ?_⟩
    refine forall₂_mem (near_greedy hV hε hwf (hclear t htm) tp.leaves' tp.root) fun m m' hm hm' hc => ⟨hc.depth, hc.conds, ?_⟩
    rw [← (tp.leaves.shapes m hm).map_x, ← (tp.leaves'.shapes m' hm').map_x]
    exact related_rows (fun _ _ hc => hc.rows) hc.curves
  refine ⟨f', trees', h1, h3, h4, h6, h7, key, fun hof inc hinc hnum overlap => ?_⟩
  obtain ⟨R, R', r1, r2, r3⟩ := h9 hof hinc hnum (key.imp fun t t' h => h.2.imp fun m m' h => h.2.1) overlap
  exact ⟨R, R', r1, r2, related_rows (fun _ _ hc => hc.rows) r3⟩

end generic

/-! ### a concrete case -/

section concrete

local instance fiTransc : Transc ℚ := ⟨id, id⟩
private def fiSpace : ConfigSpace ℚ := [⟨"x1", .float (-5) 5 false⟩, ⟨"x2", .float 0 1 false⟩, ⟨"x3", .float 0 1 false⟩]
private def fiPredict (mu sd : List ℚ → ℚ) : Predict ℚ := fun rows => .ok (rows.map mu, rows.map sd)
private def fiSamples : List (List ℚ) := [[1/10, 0, 1/2], [9/10, 0, 1/3], [2/10, 0, 1]]
private def fiVector (r : List ℚ) : Config ℚ := ⟨r, [("x1", .num (-5 + 10 * r.getD 0 0)), ("x2", .num (r.getD 1 0)), ("x3", .num (r.getD 2 0))]⟩
private def fiDraw : Nat → ForestDraw := fun k => if k = 0 then ⟨[2, 0, 1], [true, false], 0⟩ else ⟨[1, 1, 0], [false, false], 1⟩
private def fiRegion (mu sd : List ℚ → ℚ) (o : Option Int) : Py (List (List (List ℚ))) :=
  (rfInit fiSpace (fiPredict mu sd) (.name "x2") fiSamples 2 5 5).bind fun f =>
    (rfIncumbentRegion fiVector (rfPartition f 2 1 (some 3) fiDraw).1 (fiVector [2/10, 0, 9/10]) o).map Node.x
private def fiLeaves (mu sd : List ℚ → ℚ) : Py (List (List (List ℚ))) :=
  (rfInit fiSpace (fiPredict mu sd) (.name "x2") fiSamples 2 5 5).bind fun f =>
    .ok (((rfPartition f 2 1 (some 3) fiDraw).1.trees.getD []).map fun t => t.leaves.map fun m => m.x.map fun c => (c.getD 0 []).getD 0 0)

/-- Another mean and all variances four times as large: the same leaves and the same region. A variance of another form: other leaves. -/
example :
    fiLeaves (fun r => r.getD 0 0) (fun r => r.getD 0 0 * r.getD 2 0) = .ok [[[9/10], [2/10, 1/10]], [[1/10], [9/10, 9/10]]] ∧
    fiLeaves (fun _ => 7) (fun r => 2 * (r.getD 0 0 * r.getD 2 0)) = .ok [[[9/10], [2/10, 1/10]], [[1/10], [9/10, 9/10]]] ∧
    fiRegion (fun _ => 7) (fun r => 2 * (r.getD 0 0 * r.getD 2 0)) (some 1) = fiRegion (fun r => r.getD 0 0) (fun r => r.getD 0 0 * r.getD 2 0) (some 1) ∧
    fiLeaves (fun _ => 7) (fun r => if r.getD 0 0 < 15/100 then 1 else 0) = .ok [[[2/10, 9/10], [1/10]], [[1/10], [9/10, 9/10]]] := by
  decide +kernel

end concrete
end PyPDP
