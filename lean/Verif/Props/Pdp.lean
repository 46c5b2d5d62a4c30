/-
C45, C46, C81: partial dependence.
-/
import Verif.Props.IceObject
import Verif.Spec.Pdp

namespace PyPDP
open Spec
variable {K : Type}

/-! ### averages -/

theorem getD_lt {α : Type} {l : List α} {i : Nat} {a : α} (h : i < l.length) : l.getD i a = l[i] := by
  simp [List.getD, h]


theorem meanRows_spec [Field K] {n P : Nat} (hn : n ≠ 0) {y : List (List K)} (hy : Shape2 n P y) :
    ∃ out, meanRows y = .ok out ∧ IsAverage P y out := by
  obtain ⟨hl, hr⟩ := hy
  obtain ⟨r, rs, rfl⟩ := List.exists_cons_of_ne_nil (l := y) (by rintro rfl; exact hn hl.symm)
  have hrl := hr r (by simp)
  refine ⟨(List.range P).map fun c => ((r :: rs).map fun row => row.getD c 0).sum / ((r :: rs).length : K), ?_, by simp, ?_⟩
  · simp [meanRows, mean0, hrl]
  · intro p hp
    refine ⟨(r :: rs).map fun row => row.getD p 0, ⟨by simp, ?_⟩, by simp [hp]⟩
    intro s hs
    rw [List.getElem?_map, List.getElem?_eq_getElem hs, at2, List.getElem?_eq_getElem hs]
    have := hr _ (List.getElem_mem hs)
    simp only [Option.map_some, Option.bind_some]
    rw [List.getElem?_eq_getElem (by omega), getD_lt (by omega)]

theorem meanAxis0_spec [Field K] {n P F : Nat} (hn : n ≠ 0) {x : List (List (List K))} (hx : Shape3 n P F x) :
    ∃ out, meanAxis0 x = .ok out ∧ IsAverage3 P F x out := by
  obtain ⟨hl, hr⟩ := hx
  obtain ⟨m, ms, rfl⟩ := List.exists_cons_of_ne_nil (l := x) (by rintro rfl; exact hn hl.symm)
  obtain ⟨hml, hmr⟩ := hr m (by simp)
  have hlen : ∀ p < P, (m.getD p []).length = F := by
    intro p hp
    rw [getD_lt (by omega)]
    exact hmr _ (List.getElem_mem _)
  refine ⟨_, rfl, ⟨by simp [hml], ?_⟩, ?_⟩
  · intro r hr'
    obtain ⟨p, hp, rfl⟩ := List.mem_map.1 hr'
    rw [List.length_map, List.length_range]
    exact hlen p (by rw [← hml]; exact List.mem_range.1 hp)
  · intro p hp f hf
    refine ⟨(m :: ms).map fun q => entry q p f, by simp, ?_, ?_⟩
    · intro s hs
      have hq := hr _ (List.getElem_mem hs)
      have h2 := hq.2 _ (List.getElem_mem (show p < ((m :: ms)[s]).length by rw [hq.1]; exact hp))
      rw [List.getElem?_map, List.getElem?_eq_getElem hs, at3, List.getElem?_eq_getElem hs]
      simp only [Option.map_some, Option.bind_some]
      rw [List.getElem?_eq_getElem (by rw [hq.1]; exact hp), Option.bind_some, List.getElem?_eq_getElem (by rw [h2]; exact hf), entry,
        getD_lt (l := (m :: ms)[s]) (by rw [hq.1]; exact hp), getD_lt (by rw [h2]; exact hf)]
    · rw [at2, List.getElem?_map, List.getElem?_range (by omega), Option.map_some, Option.bind_some, List.getElem?_map,
        List.getElem?_range (by rw [hlen p hp]; exact hf)]
      rfl

theorem IsColumn.unique {y : List (List K)} {p : Nat} {c c' : List K} (h : IsColumn y p c) (h' : IsColumn y p c') : c = c' := by
  refine List.ext_getElem? fun s => ?_
  rcases Nat.lt_or_ge s y.length with hs | hs
  · rw [h.2 s hs, h'.2 s hs]
  · rw [List.getElem?_eq_none (by rw [h.1]; exact hs), List.getElem?_eq_none (by rw [h'.1]; exact hs)]

theorem avg_bounds [Field K] [LinearOrder K] [IsStrictOrderedRing K] {col : List K} (hne : col ≠ []) :
    ∃ lo ∈ col, ∃ hi ∈ col, lo ≤ col.sum / (col.length : K) ∧ col.sum / (col.length : K) ≤ hi := by
  have hpos : (0 : K) < col.length := by exact_mod_cast List.length_pos_iff.2 hne
  have key : ∀ l : List K, l ≠ [] → ∃ lo ∈ l, ∃ hi ∈ l, ∀ v ∈ l, lo ≤ v ∧ v ≤ hi := by
    intro l
    induction l with
    | nil => simp
    | cons a as ih =>
      intro _
      by_cases h : as = []
      · subst h; exact ⟨a, by simp, a, by simp, by simp⟩
      · obtain ⟨lo, hlo, hi, hhi, hb⟩ := ih h
        refine ⟨min a lo, ?_, max a hi, ?_, ?_⟩
        · rcases min_choice a lo with h | h <;> rw [h] <;> simp [hlo]
        · rcases max_choice a hi with h | h <;> rw [h] <;> simp [hhi]
        · intro v hv
          rcases List.mem_cons.1 hv with rfl | hv
          · exact ⟨min_le_left _ _, le_max_left _ _⟩
          · exact ⟨(min_le_right _ _).trans (hb v hv).1, (hb v hv).2.trans (le_max_right _ _)⟩
  have sum_le : ∀ (l : List K) (b : K), (∀ v ∈ l, v ≤ b) → l.sum ≤ b * l.length := by
    intro l b
    induction l with
    | nil => simp
    | cons a as ih =>
      intro h
      have := ih fun v hv => h v (by simp [hv])
      have h2 := h a (by simp)
      simp only [List.sum_cons, List.length_cons, Nat.cast_add, Nat.cast_one]
      linarith
  have le_sum : ∀ (l : List K) (b : K), (∀ v ∈ l, b ≤ v) → b * l.length ≤ l.sum := by
    intro l b
    induction l with
    | nil => simp
    | cons a as ih =>
      intro h
      have := ih fun v hv => h v (by simp [hv])
      have h2 := h a (by simp)
      simp only [List.sum_cons, List.length_cons, Nat.cast_add, Nat.cast_one]
      linarith
  obtain ⟨lo, hlo, hi, hhi, hb⟩ := key col hne
  exact ⟨lo, hlo, hi, hhi, (le_div_iff₀ hpos).2 (le_sum col lo fun v hv => (hb v hv).1),
    (div_le_iff₀ hpos).2 (sum_le col hi fun v hv => (hb v hv).2)⟩

/-! ### reads -/

theorem reads_of_gives [Field K] {i : IceState K} {d : IceData K} (h : Gives i d) :
    (∃ i', readX i = (i', .ok d.x) ∧ Stored i' d) ∧ (∃ i', readY i = (i', .ok d.y) ∧ Stored i' d) ∧
    (∃ i', readV i = (i', .ok d.v) ∧ Stored i' d) := by
  rcases h with h | ⟨hf, hc⟩
  · obtain ⟨h1, h2, h3⟩ := reads_of_stored h
    exact ⟨⟨i, h1, h⟩, ⟨i, h2, h⟩, ⟨i, h3, h⟩⟩
  · obtain ⟨h1, h2, h3⟩ := reads_of_fresh hf
    obtain ⟨hd, hs, _⟩ := (iceCalculate_eq i).1 d hc
    exact ⟨⟨_, by rw [h1, hd]; rfl, hs⟩, ⟨_, by rw [h2, hd]; rfl, hs⟩, ⟨_, by rw [h3, hd]; rfl, hs⟩⟩

theorem pdp_reads [Field K] {s : PdpState K} (hs : PdpFresh s) {i : IceState K} (hi : pdpIce s = .ok i) {d : IceData K}
    (hd : Gives i d) :
    (pdpReadX s).2 = meanAxis0 d.x ∧ (pdpReadY s).2 = meanRows d.y ∧ (pdpReadV s).2 = meanRows d.v := by
  obtain ⟨⟨i1, h1, _⟩, ⟨i2, h2, _⟩, ⟨i3, h3, _⟩⟩ := reads_of_gives hd
  refine ⟨?_, ?_, ?_⟩
  · simp only [pdpReadX, pdpCached, hs.1, hi, h1]; cases meanAxis0 d.x <;> rfl
  · simp only [pdpReadY, pdpCached, hs.2.1, hi, h2]; cases meanRows d.y <;> rfl
  · simp only [pdpReadV, pdpCached, hs.2.2, hi, h3]; cases meanRows d.v <;> rfl

/-! ### C45 -/

/-- **C45** the PDP is the average of the ICE arrays over the samples, for whatever ICE object it uses. -/
theorem C45_average [Field K] {s : PdpState K} (hs : PdpFresh s) {i : IceState K} (hi : pdpIce s = .ok i) {d : IceData K}
    (hd : Gives i d) {n P F : Nat} (hn : n ≠ 0) (hx : Shape3 n P F d.x) (hy : Shape2 n P d.y) (hv : Shape2 n P d.v) :
    ∃ x y v, (pdpReadX s).2 = .ok x ∧ (pdpReadY s).2 = .ok y ∧ (pdpReadV s).2 = .ok v ∧
      IsAverage3 P F d.x x ∧ IsAverage P d.y y ∧ IsAverage P d.v v := by
  obtain ⟨h1, h2, h3⟩ := pdp_reads hs hi hd
  obtain ⟨x, hx1, hx2⟩ := meanAxis0_spec hn hx
  obtain ⟨y, hy1, hy2⟩ := meanRows_spec hn hy
  obtain ⟨v, hv1, hv2⟩ := meanRows_spec hn hv
  exact ⟨x, y, v, by rw [h1, hx1], by rw [h2, hy1], by rw [h3, hv1], hx2, hy2, hv2⟩

/-- **C45** an average lies between the smallest and the largest of the averaged values. -/
theorem C45_bounds [Field K] [LinearOrder K] [IsStrictOrderedRing K] {n P : Nat} (hn : n ≠ 0) {y : List (List K)}
    (hy : Shape2 n P y) {out : List K} (h : IsAverage P y out) {p : Nat} (hp : p < P) :
    ∃ m, out[p]? = some m ∧ (∃ s a, at2 y s p = some a ∧ a ≤ m) ∧ (∃ s b, at2 y s p = some b ∧ m ≤ b) := by
  obtain ⟨col, hcol, hm⟩ := h.2 p hp
  have hne : col ≠ [] := by
    intro h0; have := hcol.1; rw [h0, hy.1] at this; exact hn (by simpa using this.symm)
  obtain ⟨lo, hlo, hi, hhi, h1, h2⟩ := avg_bounds hne
  have get : ∀ v ∈ col, ∃ s, at2 y s p = some v := by
    intro v hv
    obtain ⟨s, hs, rfl⟩ := List.getElem_of_mem hv
    exact ⟨s, by rw [← hcol.2 s (by rw [← hcol.1]; exact hs), List.getElem?_eq_getElem hs]⟩
  refine ⟨_, hm, ?_, ?_⟩
  · obtain ⟨s, hs⟩ := get lo hlo; exact ⟨s, lo, hs, by rw [← hcol.1]; exact h1⟩
  · obtain ⟨s, hs⟩ := get hi hhi; exact ⟨s, hi, hs, by rw [← hcol.1]; exact h2⟩

/-- the mean over the first axis does not depend on the order -/
theorem meanRows_perm [Field K] {n P : Nat} {y y' : List (List K)} (hy : Shape2 n P y) (h : y.Perm y') : meanRows y = meanRows y' := by
  have hl := h.length_eq
  by_cases h0 : y = []
  · subst h0; rw [h.nil_eq]
  · have hne' : y' ≠ [] := by rintro rfl; exact h0 (List.perm_nil.1 h)
    have e1 : (y.headD []).length = P := by
      obtain ⟨r, rs, rfl⟩ := List.exists_cons_of_ne_nil h0; exact hy.2 r (by simp)
    have e2 : (y'.headD []).length = P := by
      obtain ⟨r, rs, rfl⟩ := List.exists_cons_of_ne_nil hne'; exact hy.2 r (h.mem_iff.2 (by simp))
    unfold meanRows mean0
    rw [e1, e2, hl]
    congr 2
    refine List.map_congr_left fun c _ => ?_
    rw [(h.map _).sum_eq]

theorem meanAxis0_perm [Field K] {n P F : Nat} {x x' : List (List (List K))} (hx : Shape3 n P F x) (h : x.Perm x') :
    meanAxis0 x = meanAxis0 x' := by
  have hl := h.length_eq
  obtain _ | ⟨m, ms⟩ := x
  · rw [h.nil_eq]
  obtain _ | ⟨m', ms'⟩ := x'
  · simp at hl
  have hm := hx.2 m (by simp)
  have hm' := hx.2 m' (h.mem_iff.2 (by simp))
  simp only [meanAxis0]
  rw [hm.1, hm'.1, hl]
  congr 1
  refine List.map_congr_left fun p hp => ?_
  have hp' := List.mem_range.1 hp
  have l1 : (m.getD p []).length = F := by
    rw [getD_lt (by rw [hm.1]; exact hp')]; exact hm.2 _ (List.getElem_mem _)
  have l2 : (m'.getD p []).length = F := by
    rw [getD_lt (by rw [hm'.1]; exact hp')]; exact hm'.2 _ (List.getElem_mem _)
  rw [l1, l2]
  refine List.map_congr_left fun f _ => ?_
  rw [(h.map _).sum_eq]

/-- the ICE attributes a PDP without given ICE uses -/
theorem pdpIce_own {s : PdpState K} (hs : s.ice = none) :
    pdpIce s = .ok (iceInit ⟨s.cfg.space, s.cfg.selected, s.cfg.samples, s.cfg.samples.length, s.cfg.perAxis,
      s.cfg.perAxis ^ s.cfg.selected.length, false, s.cfg.predict⟩) := by
  have : (s.cfg.selected.map SelItem.hp).mapM (resolveItem s.cfg.space) = .ok s.cfg.selected := by
    rw [Py.mapM_eq_ok, List.forall₂_map_left_iff]
    exact List.forall₂_same.2 fun hp _ => rfl
  simp [pdpIce, hs, algorithmInit, convertHyperparameters, this]

/-- **C45** permuting the samples changes neither `x_pdp` nor `y_pdp` nor `y_variances` (for a surrogate that predicts row by
row). -/
theorem C45_order_irrelevant [Field K] [LinearOrder K] [IsStrictOrderedRing K] {s s' : PdpState K} (hs : PdpFresh s) (hs' : PdpFresh s')
    (hi : s.ice = none) (hi' : s'.ice = none)
    (hc : ValidCfg s.cfg) (hperm : s.cfg.samples.Perm s'.cfg.samples) (hcfg : s'.cfg = { s.cfg with samples := s'.cfg.samples })
    {mu sd : List K → K} (hp : RowWise s.cfg.space.length s.cfg.predict mu sd) (hn : s.cfg.samples ≠ []) (hg : s.cfg.perAxis ≠ 0) :
    (pdpReadX s).2 = (pdpReadX s').2 ∧ (pdpReadY s).2 = (pdpReadY s').2 ∧ (pdpReadV s).2 = (pdpReadV s').2 := by
  obtain ⟨grid, hgr, hgl, hfull⟩ := C40_grid (K := K) (List.length_pos_iff.2 hc.sel_ne) s.cfg.perAxis
  obtain ⟨idx, hidx, _⟩ := hc.idx
  have hP : s.cfg.perAxis ^ s.cfg.selected.length ≠ 0 := pow_ne_zero _ hg
  have key : ∀ (t : PdpState K), PdpFresh t → t.ice = none → t.cfg = { s.cfg with samples := t.cfg.samples } →
      s.cfg.samples.Perm t.cfg.samples →
      ∃ d : IceData K, d.x = iceX idx t.cfg.samples grid ∧ d.y = d.x.map (·.map mu) ∧ d.v = d.x.map (·.map fun r => sd r ^ 2) ∧
        Shape3 t.cfg.samples.length (s.cfg.perAxis ^ s.cfg.selected.length) s.cfg.space.length d.x ∧
        (pdpReadX t).2 = meanAxis0 d.x ∧ (pdpReadY t).2 = meanRows d.y ∧ (pdpReadV t).2 = meanRows d.v := by
    intro t ht hti htc htp
    obtain ⟨c, hcdef⟩ : ∃ c : IceCfg K, c = ⟨t.cfg.space, t.cfg.selected, t.cfg.samples, t.cfg.samples.length, t.cfg.perAxis,
      t.cfg.perAxis ^ t.cfg.selected.length, false, t.cfg.predict⟩ := ⟨_, rfl⟩
    have f1 : t.cfg.space = s.cfg.space := by rw [htc]
    have f2 : t.cfg.selected = s.cfg.selected := by rw [htc]
    have f3 : t.cfg.perAxis = s.cfg.perAxis := by rw [htc]
    have f4 : t.cfg.predict = s.cfg.predict := by rw [htc]
    have hcv : ValidCfg c := by
      subst hcdef
      exact ⟨by simpa only [f1] using hc.wf, by simpa only [f1, f2] using hc.sel_mem, by simpa only [f2] using hc.sel_distinct,
        by simpa only [f2] using hc.sel_ne, fun r hr => by simpa only [f1] using hc.rows r (htp.mem_iff.2 hr), rfl, rfl⟩
    have hpc : RowWise c.space.length c.predict mu sd := by subst hcdef; simpa only [f1, f4] using hp
    have hnc : c.samples ≠ [] := by
      subst hcdef; intro h0; simp only at h0; rw [h0] at htp; exact hn (List.perm_nil.1 htp)
    have hgc : grid.length = c.numGrid := by subst hcdef; simp only [f2, f3]; exact hgl
    have hPc : c.numGrid ≠ 0 := by rw [← hgc, hgl]; exact hP
    have hidxc : getSelectedIdx c.selected c.space = .ok idx := by subst hcdef; simp only [f1, f2]; exact hidx
    have hcalc := iceCalc_ok hcv hpc hnc hgc hPc hidxc
    have hcen : c.centered = false := by subst hcdef; rfl
    have hgives : Gives (iceInit c) ⟨iceX idx c.samples grid, (iceX idx c.samples grid).map (·.map mu),
        (iceX idx c.samples grid).map (·.map fun r => sd r ^ 2)⟩ := by
      refine Or.inr ⟨fresh_init c, ?_⟩
      rw [calcNow_init c (g := grid) (by subst hcdef; simp only [f2, f3]; exact hgr), hcalc, hcen]
      rfl
    have hsh := iceX_shape (grid := grid) idx hcv.rows
    refine ⟨⟨iceX idx c.samples grid, (iceX idx c.samples grid).map (·.map mu),
        (iceX idx c.samples grid).map (·.map fun r => sd r ^ 2)⟩, by subst hcdef; rfl, rfl, rfl, ?_, ?_⟩
    · rw [hgl] at hsh
      subst hcdef
      simpa only [f1] using hsh
    · exact pdp_reads ht (by rw [pdpIce_own hti, hcdef]) hgives
  obtain ⟨d, hdx, hdy, hdv, hsh, r1, r2, r3⟩ := key s hs hi rfl (List.Perm.refl _)
  obtain ⟨d', hdx', hdy', hdv', hsh', r1', r2', r3'⟩ := key s' hs' hi' hcfg hperm
  have hpx : d.x.Perm d'.x := by
    rw [hdx, hdx']; unfold iceX; exact hperm.map _
  have sh2 : ∀ g : List K → K, Shape2 s.cfg.samples.length (s.cfg.perAxis ^ s.cfg.selected.length) (d.x.map (·.map g)) := by
    intro g
    refine ⟨by simp [hsh.1], fun r hr => ?_⟩
    obtain ⟨m, hm, rfl⟩ := List.mem_map.1 hr
    rw [List.length_map, (hsh.2 m hm).1]
  rw [r1, r2, r3, r1', r2', r3']
  refine ⟨meanAxis0_perm hsh hpx, ?_, ?_⟩
  · rw [hdy, hdy']; exact meanRows_perm (sh2 mu) (hpx.map _)
  · rw [hdv, hdv']; exact meanRows_perm (sh2 _) (hpx.map _)

/-- **C45** `x_pdp[p]` carries the grid point in the selected features and the mean of the samples in the others. -/
theorem C45_x_pdp [Field K] [CharZero K] {c : IceCfg K} (hc : ValidCfg c) (hn : c.samples ≠ []) {grid : List (List K)}
    (hg : grid.length = c.numGrid) (hgk : ∀ t ∈ grid, t.length = c.selected.length) {d : IceData K} (h : iceCalc c grid = .ok d)
    {x : List (List K)} (hx : IsAverage3 c.numGrid c.space.length d.x x) {p : Nat} {t : List K} (hp : grid[p]? = some t) :
    (∀ (j : Nat) hp f, c.selected[j]? = some hp → IsFeature c.space hp f → at2 x p f = t[j]?) ∧
    (∀ f < c.space.length, (∀ hp ∈ c.selected, ¬ IsFeature c.space hp f) →
      ∃ col, IsColumn c.samples f col ∧ at2 x p f = some (col.sum / (c.samples.length : K))) := by
  obtain ⟨hshape, hat⟩ := C41_x_ice hc hg hgk h
  have hpl : p < c.numGrid := by rw [← hg]; exact (List.getElem?_eq_some_iff.1 hp).1
  have hn0 : (c.samples.length : K) ≠ 0 := by exact_mod_cast (List.length_pos_iff.2 hn).ne'
  constructor
  · intro j q f hj hf
    have hfl : f < c.space.length := by obtain ⟨h', h1, _⟩ := hf; exact (List.getElem?_eq_some_iff.1 h1).1
    obtain ⟨col, hcl, hcv, hm⟩ := hx.2 p hpl f hfl
    have hjl : j < t.length := by
      rw [hgk t (List.mem_of_getElem? hp)]; exact (List.getElem?_eq_some_iff.1 hj).1
    have hall : ∀ v ∈ col, v = t[j] := by
      intro v hv
      obtain ⟨s, hs, rfl⟩ := List.getElem_of_mem hv
      have hs' : s < c.samples.length := by rw [hcl, hshape.1] at hs; exact hs
      have h1 := hcv s (by rw [← hcl]; exact hs)
      rw [(hat s _ p t (List.getElem?_eq_getElem hs') hp).1 j q f hj hf, List.getElem?_eq_getElem hs, List.getElem?_eq_getElem hjl] at h1
      exact Option.some.inj h1
    have hrep : col = List.replicate c.samples.length t[j] :=
      List.eq_replicate_iff.2 ⟨by rw [hcl, hshape.1], hall⟩
    rw [hm, hshape.1, List.getElem?_eq_getElem hjl, hrep, List.sum_replicate, nsmul_eq_mul, mul_div_cancel_left₀ _ hn0]
  · intro f hfl hns
    obtain ⟨col, hcl, hcv, hm⟩ := hx.2 p hpl f hfl
    refine ⟨col, ⟨by rw [hcl, hshape.1], fun s hs => ?_⟩, by rw [hm, hshape.1]⟩
    rw [hcv s (by rw [hshape.1]; exact hs), (hat s _ p t (List.getElem?_eq_getElem hs) hp).2 f hns, at2, List.getElem?_eq_getElem hs]
    rfl

/-! ### C46 -/

/-- **C46** For an ICE object as constructed (any history of reads and refits in between; `centered` not set, samples and grid size
not replaced), `PDP.from_ICE` gives the same values as a PDP built from the same parts. -/
theorem C46_from_ice [Field K] {space : ConfigSpace K} {predict : Predict K} {sel sel' : Selection K} {samples : List (List K)}
    {perAxis : Nat} {c : IceCfg K} (hc : algorithmInit space predict sel samples perAxis = .ok c)
    {i : IceState K} (hi : i.cfg = c) {d : IceData K} (hd : Gives i d) (hsame : Gives (iceInit c) d)
    (hsel : convertHyperparameters sel' space = .ok c.selected) :
    ∃ s₁ s₂, pdpFromIce i = .ok s₁ ∧ pdpInit space predict sel' samples perAxis = .ok s₂ ∧
      (pdpReadX s₁).2 = (pdpReadX s₂).2 ∧ (pdpReadY s₁).2 = (pdpReadY s₂).2 ∧ (pdpReadV s₁).2 = (pdpReadV s₂).2 := by
  obtain ⟨hps, hhps, hc⟩ := Py.bind_eq_ok.1 hc
  obtain rfl := Except.ok.inj hc
  have hmap : convertHyperparameters (.many (hps.map SelItem.hp)) space = .ok hps := by
    simp only [convertHyperparameters]
    rw [Py.mapM_eq_ok, List.forall₂_map_left_iff]
    exact List.forall₂_same.2 fun hp _ => rfl
  have h1 : pdpFromIce i = .ok ⟨⟨space, hps, samples, samples.length, perAxis, perAxis ^ hps.length, false, predict⟩, some i,
      none, none, none⟩ := by
    simp [pdpFromIce, pdpInit, algorithmInit, hi, hmap]
  have h2 : pdpInit space predict sel' samples perAxis =
      .ok ⟨⟨space, hps, samples, samples.length, perAxis, perAxis ^ hps.length, false, predict⟩, none, none, none, none⟩ := by
    simp only at hsel
    simp [pdpInit, algorithmInit, hsel]
  refine ⟨_, _, h1, h2, ?_⟩
  obtain ⟨a1, a2, a3⟩ := pdp_reads (s := ⟨⟨space, hps, samples, samples.length, perAxis, perAxis ^ hps.length, false, predict⟩, some i,
      none, none, none⟩) ⟨rfl, rfl, rfl⟩ rfl hd
  obtain ⟨b1, b2, b3⟩ := pdp_reads (s := ⟨⟨space, hps, samples, samples.length, perAxis, perAxis ^ hps.length, false, predict⟩, none,
      none, none, none⟩) ⟨rfl, rfl, rfl⟩ (by rw [pdpIce_own rfl]) hsame
  exact ⟨a1.trans b1.symm, a2.trans b2.symm, a3.trans b3.symm⟩

/-- the hypotheses of `C46_from_ice` hold for a newly built ICE object and after any reads of it -/
theorem gives_after_reads [Field K] {i : IceState K} {d : IceData K} (h : Gives i d) {ops : List (IceOp K)}
    (hops : ∀ op ∈ ops, IsDataRead op) : Gives (iceRun i ops) d ∧ (iceRun i ops).cfg = i.cfg := by
  induction ops generalizing i with
  | nil => exact ⟨h, rfl⟩
  | cons op ops ih =>
    obtain ⟨⟨i1, h1, s1⟩, ⟨i2, h2, s2⟩, ⟨i3, h3, s3⟩⟩ := reads_of_gives h
    have hk := C44_read_keeps_attributes i (h.elim (fun h => Or.inr ⟨d, h⟩) fun h => Or.inl h.1)
    have hop := hops op (by simp)
    have hstep : Gives (iceStep i op) d ∧ (iceStep i op).cfg = i.cfg := by
      cases op with
      | readX => exact ⟨Or.inl (by simpa [iceStep, h1] using s1), hk.1⟩
      | readY => exact ⟨Or.inl (by simpa [iceStep, h2] using s2), hk.2.1⟩
      | readV => exact ⟨Or.inl (by simpa [iceStep, h3] using s3), hk.2.2⟩
      | _ => exact absurd hop (by simp [IsDataRead])
    obtain ⟨g1, g2⟩ := ih hstep.1 fun o ho => hops o (by simp [ho])
    exact ⟨g1, g2.trans hstep.2⟩

/-- **C46** the grid points are those of the given ICE object, and a directly built PDP has the same full grid. -/
theorem C46_grid_points [Field K] {i : IceState K} {s : PdpState K} (h : pdpFromIce i = .ok s) :
    (pdpGrid s).2 = (readGrid i).2 ∧
    (i.grid = none → (readGrid i).2 = gridPoints i.cfg.selected.length i.cfg.perAxis) ∧
    ∀ t : PdpState K, t.ice = none → (pdpGrid t).2 = gridPoints t.cfg.selected.length t.cfg.perAxis := by
  refine ⟨?_, ?_, ?_⟩
  · obtain ⟨s', _, h⟩ := Py.bind_eq_ok.1 h
    obtain rfl := Except.ok.inj h
    rfl
  · intro hg
    simp only [readGrid, hg]
    cases (gridPoints i.cfg.selected.length i.cfg.perAxis : Py (List (List K))) <;> rfl
  · intro t ht
    simp only [pdpGrid, pdpIce_own ht, readGrid, iceInit]
    cases (gridPoints t.cfg.selected.length t.cfg.perAxis : Py (List (List K))) <;> rfl

/-- a centered ICE object gives another `y_pdp` than a PDP built directly: the restriction to uncentered objects is needed -/
example : ((pdpFromIce (iceInit (exIce true))).bind fun s => (pdpReadY s).2) = .ok [0, 2] ∧
    ((pdpFromIce (iceInit (exIce false))).bind fun s => (pdpReadY s).2) = .ok [3/8, 19/8] := by decide +kernel

example : ((pdpFromIce (iceInit (exIce false))).bind fun s => (pdpReadX s).2) = .ok [[3/8, 0], [3/8, 1]] ∧
    ((pdpFromIce (iceInit (exIce false))).bind fun s => (pdpReadV s).2) = .ok [0, 1] := by decide +kernel

/-! ### C81 -/

/-- all stored values of the PDP are averages of the arrays of `d`, and so will be all further ones -/
def BelongTo [Field K] (s : PdpState K) (d : IceData K) : Prop :=
  (∃ i, s.ice = some i ∧ Gives i d) ∧ (∀ x, s.x = some x → meanAxis0 d.x = .ok x) ∧ (∀ y, s.y = some y → meanRows d.y = .ok y) ∧
    (∀ v, s.v = some v → meanRows d.v = .ok v)

theorem belongTo_reads [Field K] {s : PdpState K} {d : IceData K} (h : BelongTo s d) :
    ((pdpReadX s).2 = meanAxis0 d.x ∧ BelongTo (pdpReadX s).1 d) ∧ ((pdpReadY s).2 = meanRows d.y ∧ BelongTo (pdpReadY s).1 d) ∧
    ((pdpReadV s).2 = meanRows d.v ∧ BelongTo (pdpReadV s).1 d) := by
  obtain ⟨⟨i, hi, hd⟩, hx, hy, hv⟩ := h
  have hpi : pdpIce s = .ok i := by simp [pdpIce, hi]
  obtain ⟨⟨i1, h1, s1⟩, ⟨i2, h2, s2⟩, ⟨i3, h3, s3⟩⟩ := reads_of_gives hd
  refine ⟨?_, ?_, ?_⟩
  · unfold pdpReadX pdpCached
    cases hc : s.x with
    | some x => exact ⟨(hx x hc).symm, ⟨i, hi, hd⟩, hx, hy, hv⟩
    | none =>
      simp only [hpi, h1]
      cases hm : meanAxis0 d.x with
      | error e => exact ⟨rfl, ⟨i1, rfl, Or.inl s1⟩, by simp, hy, hv⟩
      | ok b => exact ⟨rfl, ⟨i1, rfl, Or.inl s1⟩, by simp [hm], hy, hv⟩
  · unfold pdpReadY pdpCached
    cases hc : s.y with
    | some x => exact ⟨(hy x hc).symm, ⟨i, hi, hd⟩, hx, hy, hv⟩
    | none =>
      simp only [hpi, h2]
      cases hm : meanRows d.y with
      | error e => exact ⟨rfl, ⟨i2, rfl, Or.inl s2⟩, hx, by simp, hv⟩
      | ok b => exact ⟨rfl, ⟨i2, rfl, Or.inl s2⟩, hx, by simp [hm], hv⟩
  · unfold pdpReadV pdpCached
    cases hc : s.v with
    | some x => exact ⟨(hv x hc).symm, ⟨i, hi, hd⟩, hx, hy, hv⟩
    | none =>
      simp only [hpi, h3]
      cases hm : meanRows d.v with
      | error e => exact ⟨rfl, ⟨i3, rfl, Or.inl s3⟩, hx, hy, by simp⟩
      | ok b => exact ⟨rfl, ⟨i3, rfl, Or.inl s3⟩, hx, hy, by simp [hm]⟩

/-- operations that keep a calculation: everything except a reset of the ICE object -/
def KeepsCalculation : PdpOp K → Prop
  | .onIce op => ¬ IsReset op
  | _ => True

theorem belongTo_step [Field K] {s : PdpState K} {d : IceData K} (h : BelongTo s d) (hst : ∃ i, s.ice = some i ∧ Stored i d)
    {op : PdpOp K} (hop : KeepsCalculation op) : BelongTo (pdpStep s op) d ∧ ∃ i, (pdpStep s op).ice = some i ∧ Stored i d := by
  have reads := belongTo_reads h
  obtain ⟨i, hi, hs⟩ := hst
  have hpi : pdpIce s = .ok i := by simp [pdpIce, hi]
  obtain ⟨r1, r2, r3⟩ := reads_of_stored hs
  cases op with
  | readX =>
    refine ⟨reads.1.2, i, ?_, hs⟩
    simp only [pdpStep, pdpReadX, pdpCached, hpi, r1]
    cases s.x <;> simp only [hi]
    cases meanAxis0 d.x <;> rfl
  | readY =>
    refine ⟨reads.2.1.2, i, ?_, hs⟩
    simp only [pdpStep, pdpReadY, pdpCached, hpi, r2]
    cases s.y <;> simp only [hi]
    cases meanRows d.y <;> rfl
  | readV =>
    refine ⟨reads.2.2.2, i, ?_, hs⟩
    simp only [pdpStep, pdpReadV, pdpCached, hpi, r3]
    cases s.v <;> simp only [hi]
    cases meanRows d.v <;> rfl
  | readGrid =>
    have hs' : Stored (readGrid i).1 d := stored_step (op := .readGrid) hs (by simp [IsReset])
    have e : pdpStep s .readGrid = { s with ice := some (readGrid i).1 } := by simp [pdpStep, pdpGrid, hpi]
    rw [e]
    exact ⟨⟨⟨_, rfl, Or.inl hs'⟩, h.2⟩, _, rfl, hs'⟩
  | onIce o =>
    have hs' := stored_step hs hop
    have e : pdpStep s (.onIce o) = { s with ice := some (iceStep i o) } := by simp [pdpStep, hpi]
    rw [e]
    exact ⟨⟨⟨_, rfl, Or.inl hs'⟩, h.2⟩, _, rfl, hs'⟩

/-- **C81**, partial: as long as the ICE object is not reset, everything read from the PDP stems from one calculation. Missing
(false): a reset in between. -/
theorem C81_same_calculation_partial [Field K] {s : PdpState K} (hs : PdpFresh s) {i : IceState K} (hi : s.ice = some i)
    {d : IceData K} (hd : Stored i d) {ops : List (PdpOp K)} (hops : ∀ op ∈ ops, KeepsCalculation op) :
    (pdpReadX (pdpRun s ops)).2 = meanAxis0 d.x ∧ (pdpReadY (pdpRun s ops)).2 = meanRows d.y ∧
    (pdpReadV (pdpRun s ops)).2 = meanRows d.v := by
  have key : ∀ (ops : List (PdpOp K)) (s : PdpState K), BelongTo s d → (∃ i, s.ice = some i ∧ Stored i d) →
      (∀ op ∈ ops, KeepsCalculation op) → BelongTo (pdpRun s ops) d := by
    intro ops
    induction ops with
    | nil => exact fun s h _ _ => h
    | cons op ops ih =>
      intro s h hst hops
      obtain ⟨h1, h2⟩ := belongTo_step h hst (hops op (by simp))
      exact ih _ h1 h2 fun o ho => hops o (by simp [ho])
  have := belongTo_reads (key ops s ⟨⟨i, hi, Or.inl hd⟩, by simp [hs.1], by simp [hs.2.1], by simp [hs.2.2]⟩ ⟨i, hi, hd⟩ hops)
  exact ⟨this.1.1, this.2.1.1, this.2.2.1⟩

/-- **C81** is false: each of the three properties is stored on its own. Read `x_pdp`, give the ICE object other samples (as many as
before) and reset it: `x_pdp` is still the one of the old samples (`3/8` in the unselected feature), `y_pdp` is the one of the new
samples (`3/4` in the unselected feature would be its `x_pdp`). -/
theorem C81_counterexample :
    ∃ (s : PdpState ℚ) (ops : List (PdpOp ℚ)), pdpFromIce (iceInit (exIce false)) = .ok s ∧
      (pdpReadX (pdpRun s (.readX :: ops))).2 = .ok [[3/8, 0], [3/8, 1]] ∧
      (pdpReadX (pdpRun s ops)).2 = .ok [[3/4, 0], [3/4, 1]] ∧
      (pdpReadY (pdpRun s (.readX :: ops))).2 = .ok [3/4, 11/4] ∧
      (pdpReadY s).2 = .ok [3/8, 19/8] := by
  refine ⟨⟨exIce false, some (iceInit (exIce false)), none, none, none⟩,
    [.onIce (.setSamples [[3/4, 1/3], [3/4, 1/5]]), .onIce .reset], rfl, ?_, ?_, ?_, ?_⟩ <;> decide +kernel

end PyPDP
