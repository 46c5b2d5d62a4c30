/-
C156: what a larger depth limit changes for one configuration, and from which depth on nothing changes any more.
-/
import Verif.Props.Tiling

namespace PyPDP
open Spec

section general
variable {K : Type} [Field K] [LinearOrder K] [IsStrictOrderedRing K] [Transc K] {P : Nat} {p : DT K}

/-- **C156** The incumbent region of a deeper partition lies within that of a shallower one: fewer (or the same) curves, and the conditions extend
the old ones. -/
theorem C156_nested (hv : ValidDT P p) (hnum : ∀ hp ∈ p.possible, hp.isNumerical = true) {d d' : Int} (hd : 0 < d) (hdd : d ≤ d') {cfg : Config K}
    (hcfg : HasNumbers p.possible cfg) :
    ∃ m m', dtIncumbentRegion (dtPartition p d).1 cfg = .ok (some m) ∧ dtIncumbentRegion (dtPartition p d').1 cfg = .ok (some m') ∧
      (curves m').Sublist (curves m) ∧ m.conds <+: m'.conds := by
  obtain ⟨L, i, m, a1, a2, a3, a4⟩ := C57_exactly_one_leaf hv hnum hd hcfg
  obtain ⟨L', i', m', b1, b2, b3, b4⟩ := C57_exactly_one_leaf hv hnum (hd.trans_le hdd) hcfg
  obtain ⟨L0, L0', c1, c2, c3⟩ := C61_refines hv hd hdd
  rw [a1] at c1
  obtain rfl := Except.ok.inj c1
  rw [b1] at c2
  obtain rfl := Except.ok.inj c2
  obtain ⟨m0, hm0, s1, s2⟩ := c3 m' (List.mem_of_getElem? b2)
  obtain ⟨j, hj⟩ := List.mem_iff_getElem?.1 hm0
  have hc := b3 i' m' b2
  obtain ⟨more, hmore⟩ := s2
  rw [← hmore, containsAll_append, a3 j m0 hj, Py.ok_bind] at hc
  have hji : j = i := by
    by_contra hne
    simp [hne] at hc
  subst hji
  rw [a2] at hj
  obtain rfl := Option.some.inj hj
  exact ⟨m, m', a4, b4, s1, ⟨more, hmore⟩⟩

omit [IsStrictOrderedRing K] [Transc K] [Field K] [LinearOrder K] in
/-- a tree none of whose leaves is at the limit is the tree for every larger limit -/
theorem grown_deeper {split : Node K → Py (Option (Node K × Node K))} {d d' : Int} (hdd : d ≤ d') {n : Node K} {L : List (Node K)}
    (h : Grown split d n L) (hlt : ∀ m ∈ L, (m.depth : Int) < d) : Grown split d' n L := by
  induction h with
  | stop hs =>
    refine .stop (.inl (hs.resolve_right fun hle => ?_))
    have := hlt _ (List.mem_singleton_self _)
    omega
  | noSplit hs he =>
    refine .noSplit (fun hs' => hs (hs'.imp_right fun hle => ?_)) he
    omega
  | @branch n l r Ll Lr hs he hl hr ih1 ih2 =>
    refine .branch (fun hs' => ?_) he (ih1 fun m hm => hlt m (by simp [hm])) (ih2 fun m hm => hlt m (by simp [hm]))
    rcases hs' with h | h
    · exact hs (.inl h)
    · exact hs (.inr (hdd.trans h))

omit [IsStrictOrderedRing K] [Transc K] [Field K] [LinearOrder K] in
theorem grown_unique {split : Node K → Py (Option (Node K × Node K))} {d : Int} {n : Node K} {L L' : List (Node K)}
    (h : Grown split d n L) (h' : Grown split d n L') : L = L' := by
  induction h generalizing L' with
  | stop hs =>
    cases h' with
    | stop => rfl
    | noSplit => rfl
    | branch hs' => exact absurd hs hs'
  | noSplit hs he =>
    cases h' with
    | stop => rfl
    | noSplit => rfl
    | branch _ he' => rw [he] at he'; cases he'
  | branch hs he _ _ ih1 ih2 =>
    cases h' with
    | stop hs' => exact absurd hs' hs
    | noSplit _ he' => rw [he] at he'; cases he'
    | branch _ he' hl hr =>
      rw [he] at he'
      obtain ⟨rfl, rfl⟩ := Prod.mk.inj (Option.some.inj (Except.ok.inj he'))
      rw [ih1 hl, ih2 hr]

/-- **C156** If no leaf is at the depth limit, every larger limit gives the same leaves. -/
theorem C156_settled (hv : ValidDT P p) {d d' : Int} (hd : 0 < d) (hdd : d ≤ d') {leaves : List (Node K)} (hL : (dtPartition p d).2 = .ok leaves)
    (hlt : ∀ m ∈ leaves, (m.depth : Int) < d) : (dtPartition p d').2 = .ok leaves := by
  obtain ⟨L, h1, h2, -, -⟩ := partition_eq hv hd
  obtain ⟨L', h1', h2', -, -⟩ := partition_eq hv (hd.trans_le hdd)
  rw [h1] at hL
  obtain rfl : L = leaves := Except.ok.inj hL
  rw [h1', grown_unique h2' (grown_deeper hdd h2 hlt)]

/-- **C156** If one more level does not change the leaves, no further level does. -/
theorem C156_unchanged (hv : ValidDT P p) {d d' : Int} (hd : 0 < d) (hdd : d ≤ d') (h : (dtPartition p (d + 1)).2 = (dtPartition p d).2) :
    (dtPartition p d').2 = (dtPartition p d).2 := by
  obtain ⟨L, h1, -, -, h2⟩ := C51_depth_and_count hv hd
  rw [h1] at h ⊢
  rcases hdd.eq_or_lt with rfl | hlt
  · exact h1
  · exact C156_settled hv (by omega) (by omega) h fun m hm => by have := (h2 m hm).1; omega

omit [IsStrictOrderedRing K] [Transc K] in
/-- every split takes at least `minPoints` curves away -/
theorem greedy_depth {cs possible : List (Hp K)} {N minPoints : Nat} {d : Int} {n : Node K} {L : List (Node K)} (h : Greedy cs possible N minPoints P d n L) :
    ∀ m ∈ L, n.depth ≤ m.depth ∧ (curves m).length + (m.depth - n.depth) * minPoints ≤ (curves n).length ∧
      (m = n ∨ minPoints ≤ (curves m).length) := by
  induction h with
  | leaf => intro m hm; rw [List.mem_singleton.1 hm]; simp
  | @branch n l r Ll Lr i j hp f hn hdep h2 hb hsp _ _ ih1 ih2 =>
    have hsum : (curves l).length + (curves r).length = (curves n).length := by
      rw [hsp.left_curves, hsp.right_curves, List.length_eq_length_filter_add (l := curves n) fun c => decide (featureOf f c ≤ threshold N j)]
      congr 2
      exact List.filter_congr fun c _ => by by_cases hc : featureOf f c ≤ threshold N j <;> simp [hc, not_lt.2, lt_of_not_ge]
    have hl : minPoints ≤ (curves l).length := by rw [hsp.left_curves]; exact hb.1.left_size
    have hr : minPoints ≤ (curves r).length := by rw [hsp.right_curves]; exact hb.1.right_size
    have key : ∀ (c o : Node K), c.depth = n.depth + 1 → (curves c).length + (curves o).length = (curves n).length → minPoints ≤ (curves o).length →
        minPoints ≤ (curves c).length → ∀ m : Node K, c.depth ≤ m.depth ∧ (curves m).length + (m.depth - c.depth) * minPoints ≤ (curves c).length ∧
          (m = c ∨ minPoints ≤ (curves m).length) →
        n.depth ≤ m.depth ∧ (curves m).length + (m.depth - n.depth) * minPoints ≤ (curves n).length ∧
          (m = n ∨ minPoints ≤ (curves m).length) := by
      intro c o hc hco ho hcm m ⟨e1, e2, e3⟩
      have e4 : m.depth - n.depth = (m.depth - c.depth) + 1 := by omega
      refine ⟨by omega, ?_, ?_⟩
      · rw [e4, Nat.add_mul]; omega
      · right
        rcases e3 with e3 | e3
        · rw [e3]; exact hcm
        · exact e3
    intro m hm
    rcases List.mem_append.1 hm with hm | hm
    · exact key r l hsp.right_depth (by omega) hl hr m (ih2 m hm)
    · exact key l r hsp.left_depth hsum hr hl m (ih1 m hm)

/-- **C156** If every node has to keep at least `k >= 1` curves, then from the depth `n / k` on (`n` the number of curves, rounded down) no larger
depth changes the leaves; no leaf is deeper than that, and there are at most `n / k` leaves (or the root alone). -/
theorem C156_deep_enough (hv : ValidDT P p) (hmin : 1 ≤ p.minPoints) {d d' : Int} (hd : 0 < d)
    (hdeep : (((curves p.root).length / p.minPoints : Nat) : Int) ≤ d) (hdd : d ≤ d') :
    (dtPartition p d').2 = (dtPartition p d).2 ∧ ∃ leaves, (dtPartition p d).2 = .ok leaves ∧
      (∀ m ∈ leaves, m = p.root ∨ m.depth < (curves p.root).length / p.minPoints) ∧
      (leaves = [p.root] ∨ leaves.length ≤ (curves p.root).length / p.minPoints) := by
  obtain ⟨L, h1, -, h3, -⟩ := partition_eq hv hd
  have hL : (dtPartition p d).2 = .ok L := by rw [h1]
  have hdepth : ∀ m ∈ L, m = p.root ∨ m.depth < (curves p.root).length / p.minPoints := by
    intro m hm
    obtain ⟨-, e2, e3⟩ := greedy_depth h3 m hm
    rcases e3 with e3 | e3
    · exact .inl e3
    · right
      rw [hv.depth, Nat.sub_zero] at e2
      rw [Nat.lt_iff_add_one_le, Nat.le_div_iff_mul_le hmin, Nat.add_mul]
      omega
  have hlt : ∀ m ∈ L, (m.depth : Int) < d := by
    intro m hm
    rcases hdepth m hm with rfl | h
    · rw [hv.depth]; exact_mod_cast hd
    · have : (m.depth : Int) < (((curves p.root).length / p.minPoints : Nat) : Int) := by exact_mod_cast h
      omega
  refine ⟨by rw [hL]; exact C156_settled hv hd hdd hL hlt, L, hL, hdepth, ?_⟩
  by_cases hroot : p.root ∈ L
  · left
    cases h3 with
    | leaf => rfl
    | @branch _ l r Ll Lr i j hp f hn hdep h2 hb hsp hl hr =>
      exfalso
      rcases List.mem_append.1 hroot with hm | hm
      · have := (greedy_depth hr _ hm).1
        rw [hsp.right_depth] at this
        omega
      · have := (greedy_depth hl _ hm).1
        rw [hsp.left_depth] at this
        omega
  · right
    have hsum : (L.map fun m => (curves m).length).sum = (curves p.root).length := by
      rw [← h3.perm.length_eq, List.length_flatMap]
    have hge : ∀ m ∈ L, p.minPoints ≤ (curves m).length := fun m hm => by
      refine (greedy_depth h3 m hm).2.2.resolve_left ?_
      rintro rfl
      exact hroot hm
    rw [Nat.le_div_iff_mul_le hmin, ← hsum]
    clear hsum hroot hlt hdepth hL h3 h1
    induction L with
    | nil => simp
    | cons a L ih =>
      simp only [List.length_cons, List.map_cons, List.sum_cons, Nat.add_mul]
      have := hge a (by simp)
      have := ih fun m hm => hge m (by simp [hm])
      omega

end general

/-- **C156** The space implied by the incumbent region of a deeper partition lies within that of a shallower one, axis by axis. -/
theorem C156_boxes {P : Nat} {p : DT ℝ} (hv : ValidDT P p) (hnum : NumericalSpace p.cfg.space) {d d' : Int} (hd : 0 < d) (hdd : d ≤ d')
    {cfg : Config ℝ} (hcfg : HasNumbers p.possible cfg) :
    ∃ m m' out out', dtIncumbentRegion (dtPartition p d).1 cfg = .ok (some m) ∧ dtIncumbentRegion (dtPartition p d').1 cfg = .ok (some m') ∧
      regionImplied p.cfg.space m.conds = .ok out ∧ regionImplied p.cfg.space m'.conds = .ok out' ∧ out'.map Hp.name = out.map Hp.name ∧
      ∀ (f : Nat) hp hp' l u g l' u' g', out[f]? = some hp → out'[f]? = some hp' → hp.numerical? = some (l, u, g) → hp'.numerical? = some (l', u', g') →
        l ≤ l' ∧ u' ≤ u ∧ g' = g := by
  have hn : ∀ hp ∈ p.possible, hp.isNumerical = true := fun hp hm => by
    obtain ⟨l, u, g, h, -⟩ := hnum hp (hv.possible_mem hp hm)
    simp [Hp.isNumerical, h]
  obtain ⟨L, i, m, a1, a2, a3, a4⟩ := C57_exactly_one_leaf hv hn hd hcfg
  obtain ⟨L', i', m', b1, b2, b3, b4⟩ := C57_exactly_one_leaf hv hn (hd.trans_le hdd) hcfg
  obtain ⟨m0, m0', c1, c2, -, c4⟩ := C156_nested hv hn hd hdd hcfg
  rw [a4] at c1
  obtain rfl := Option.some.inj (Except.ok.inj c1)
  rw [b4] at c2
  obtain rfl := Option.some.inj (Except.ok.inj c2)
  obtain ⟨L0, e1, e2⟩ := C59_leaves hv hd
  rw [a1] at e1
  obtain rfl := Except.ok.inj e1
  obtain ⟨L0', e1', e2'⟩ := C59_leaves hv (hd.trans_le hdd)
  rw [b1] at e1'
  obtain rfl := Except.ok.inj e1'
  obtain ⟨out, k1, k2, k3⟩ := C59_box hv.wf hnum (e2 m (List.mem_of_getElem? a2))
  obtain ⟨out', k1', k2', k3'⟩ := C59_box hv.wf hnum (e2' m' (List.mem_of_getElem? b2))
  have hnames : ∀ (o : ConfigSpace ℝ), o.length = List.length p.cfg.space → (∀ (f : Nat) hp l u g, p.cfg.space[f]? = some hp → hp.numerical? = some (l, u, g) →
      ∃ l' u', o[f]? = some ⟨hp.name, .float l' u' g⟩) → o.map Hp.name = p.cfg.space.map Hp.name := by
    intro o ho h
    refine List.ext_getElem (by simpa using ho) fun f h1 h2 => ?_
    have hf : f < List.length p.cfg.space := by simpa using h2
    obtain ⟨l, u, g, hk, -⟩ := hnum _ (List.getElem_mem hf)
    obtain ⟨l', u', ho⟩ := h f _ l u g (List.getElem?_eq_getElem hf) hk
    rw [List.getElem_map, List.getElem_map]
    rw [List.getElem?_eq_getElem (by simpa using h1)] at ho
    rw [Option.some.inj ho]
  refine ⟨m, m', out, out', a4, b4, k1, k1', ?_, ?_⟩
  · rw [hnames out k2 fun f hp l u g h1 h2 => by obtain ⟨l', u', h, -⟩ := k3 f hp l u g h1 h2; exact ⟨l', u', h⟩,
      hnames out' k2' fun f hp l u g h1 h2 => by obtain ⟨l', u', h, -⟩ := k3' f hp l u g h1 h2; exact ⟨l', u', h⟩]
  · intro f hp hp' l u g l' u' g' ho ho' hb hb'
    have hf : f < List.length p.cfg.space := by rw [← k2]; exact (List.getElem?_eq_some_iff.1 ho).1
    obtain ⟨l0, u0, g0, hk, -⟩ := hnum _ (List.getElem_mem hf)
    obtain ⟨l1, u1, q1, q2, q3⟩ := k3 f _ l0 u0 g0 (List.getElem?_eq_getElem hf) hk
    obtain ⟨l2, u2, r1, r2, r3⟩ := k3' f _ l0 u0 g0 (List.getElem?_eq_getElem hf) hk
    rw [ho] at q1
    obtain rfl := Option.some.inj q1
    rw [ho'] at r1
    obtain rfl := Option.some.inj r1
    obtain ⟨rfl, rfl, rfl⟩ : l1 = l ∧ u1 = u ∧ g0 = g := by simpa [Hp.numerical?] using hb
    obtain ⟨rfl, rfl, rfl⟩ : l2 = l' ∧ u2 = u' ∧ g0 = g' := by simpa [Hp.numerical?] using hb'
    refine ⟨?_, ?_, rfl⟩
    · refine r3.2 ?_
      rcases q3.1 with h | ⟨c, hc, hcut⟩
      · exact .inl h
      · exact .inr ⟨c, c4.subset hc, hcut⟩
    · refine r2.2 ?_
      rcases q2.1 with h | ⟨c, hc, hcut⟩
      · exact .inl h
      · exact .inr ⟨c, c4.subset hc, hcut⟩

/-! ### a concrete case -/

section concrete

local instance dpTransc : Transc ℚ := ⟨id, id⟩
private def dpTree (minPoints : Nat) : Py (DT ℚ) :=
  dtInit [⟨"x1", .float (-5) 5 false⟩, ⟨"x2", .float 0 1 false⟩]
    (fun rows => .ok (rows.map fun r => r.getD 0 0 + 2 * r.getD 1 0, rows.map fun r => r.getD 0 0 * r.getD 1 0))
    (.name "x2") [[1/10, 0], [9/10, 0], [2/10, 0], [8/10, 0], [4/10, 0]] 2 9 minPoints none

/-- five samples: with one curve per node the leaves get finer up to depth 3; the incumbent region of the same configuration loses curves; with two
curves per node depth 2 changes nothing any more -/
example :
    [1, 2, 3, 4, 5].map (fun d => (dpTree 1).bind fun p => (dtPartition p d).2.map fun L => L.map fun m => m.y.length) =
      [.ok [2, 3], .ok [1, 1, 1, 2], .ok [1, 1, 1, 1, 1], .ok [1, 1, 1, 1, 1], .ok [1, 1, 1, 1, 1]] ∧
    [1, 2, 3, 4, 5].map (fun d => (dpTree 2).bind fun p => (dtPartition p d).2.map fun L => L.map fun m => m.y.length) =
      [.ok [2, 3], .ok [2, 3], .ok [2, 3], .ok [2, 3], .ok [2, 3]] ∧
    [1, 2, 3].map (fun d => (dpTree 1).bind fun p => (dtIncumbentRegion (dtPartition p d).1 ⟨[0, 0], [("x1", .num (-4)), ("x2", .num 0)]⟩).map fun m =>
      m.map fun m => m.y.map fun y => y.getD 0 0) =
      [.ok (some [1/10, 2/10, 4/10]), .ok (some [1/10, 2/10]), .ok (some [1/10])] := by decide +kernel

end concrete

end PyPDP
