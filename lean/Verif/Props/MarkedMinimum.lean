/-
C196: how far the marked minimum of a PDP is from the minimum of the partial dependence.
-/
import Verif.Props.DrawnLine
import Verif.Props.GridSearch

namespace PyPDP
open Spec

section marked

/-- over every value there is a chord between neighbouring grid points, and it is not below a bound for the values at the grid points -/
theorem grid_chord {n : Nat} (hn : 2 ≤ n) {F : ℝ → ℝ} {m : ℝ} (hm : ∀ i < n, m ≤ F (gridValue n i)) {t : ℝ} (ht : t ∈ Set.Icc (0 : ℝ) 1) :
    ∃ a b w, a ∈ Set.Icc (0 : ℝ) 1 ∧ b ∈ Set.Icc (0 : ℝ) 1 ∧ b - a = 1 / ((n : ℝ) - 1) ∧ 0 ≤ w ∧ w ≤ 1 ∧ t = (1 - w) * a + w * b ∧ m ≤ (1 - w) * F a + w * F b := by
  obtain ⟨⟨y, hy⟩, h2⟩ := line_points (l := 0) (u := 1) (g := false) one_pos (by simp) hn (xs := (List.range n).map fun i => interpolate 0 1 false (gridValue n i))
    (ys := (List.range n).map fun i => F (gridValue n i)) (F := F) (by simp) (fun i hi => by simp [hi]) ht
  obtain ⟨a, b, w, ha, hb, hab, w0, w1, e1, e2⟩ := h2 y hy
  refine ⟨a, b, w, ha, hb, hab, w0, w1, e1, ?_⟩
  rw [← e2]
  obtain ⟨i, _, _, c, d, v, -, -, hc, hd, v0, v1, -, rfl⟩ := hy
  have hv : ∀ {j : Nat} {c : ℝ}, ((List.range n).map fun i => F (gridValue n i))[j]? = some c → m ≤ c := by
    intro j c hc
    obtain ⟨k, hk, rfl⟩ := List.mem_map.1 (List.mem_of_getElem? hc)
    exact hm k (List.mem_range.1 hk)
  nlinarith [mul_nonneg v0 (sub_nonneg.2 (hv hd)), mul_nonneg (sub_nonneg.2 v1) (sub_nonneg.2 (hv hc))]

theorem meanOver_sub (S : List (List ℝ)) (m m' : List ℝ → ℝ) : (meanOver S fun r => m r - m' r) = meanOver S m - meanOver S m' := by
  unfold meanOver
  rw [← sub_div]
  congr 1
  induction S with
  | nil => simp
  | cons a as ih =>
    simp only [List.map_cons, List.sum_cons, ih]
    ring

theorem FirstBest.le {ys : List ℝ} {i : Nat} {v : ℝ} (h : FirstBest (· < ·) ys i v) {j : Nat} {w : ℝ} (hj : ys[j]? = some w) : v ≤ w :=
  not_lt.1 (h.2.1 w (List.mem_of_getElem? hj))

theorem gridValue_mem {n i : Nat} (hn : 2 ≤ n) (hi : i < n) : gridValue n i ∈ Set.Icc (0 : ℝ) 1 := by
  have hn1 : (0 : ℝ) < (n : ℝ) - 1 := by
    have : (2 : ℝ) ≤ n := by exact_mod_cast hn
    linarith
  have hi' : (i : ℝ) + 1 ≤ n := by exact_mod_cast hi
  rw [gridValue, if_neg (by omega)]
  exact ⟨by positivity, by rw [div_le_one hn1]; linarith⟩

/-- **C196** The marked minimum of a PDP of one hyperparameter. `plot_incumbent` of its curve draws one vertical line, at a value `t` (normalised) between the bounds.
If the means of the surrogate change by at most `C` times the change of the hyperparameter, then the average of the means is at `t` at most `C / (2 (n - 1))` larger than at any
other value, also between the `n` grid points; if they have second derivatives of at most `M`, at most `M / (8 (n - 1) ^ 2)` larger. If the average falls up to some value and
rises from there on, the vertical line is less than one grid step from this value. -/
theorem C196_one {s : PdpState ℝ} (hs : PdpFresh s) (hi : s.ice = none) {mu sd : List ℝ → ℝ} (hc : Plottable s.cfg mu sd) {hp : Hp ℝ}
    (hsel : s.cfg.selected = [hp]) {l u : ℝ} {g : Bool} (hk : hp.kind = .float l u g ∨ hp.kind = .integer l u g) {f : Nat}
    (hf : IsFeature s.cfg.space hp f) (hn : 2 ≤ s.cfg.perAxis) {ax ax' : Ax ℝ} (hax : checkAndSetAxis [hp] true "Prediction" ax = (ax', .ok ())) (color : String) :
    ∃ c t, (pdpCurve s).2 = .ok c ∧ t ∈ Set.Icc (0 : ℝ) 1 ∧ curveIncumbent color c ax = (ax'.draw [.vline color (interpolate l u g t)], .ok ()) ∧
      (∀ C, (∀ r ∈ s.cfg.samples, ∀ t ∈ Set.Icc (0 : ℝ) 1, ∀ t' ∈ Set.Icc (0 : ℝ) 1, |mu (r.set f t) - mu (r.set f t')| ≤ C * |t - t'|) → ∀ t' ∈ Set.Icc (0 : ℝ) 1,
        (meanOver s.cfg.samples fun r => mu (r.set f t)) ≤ (meanOver s.cfg.samples fun r => mu (r.set f t')) + C / (2 * ((s.cfg.perAxis : ℝ) - 1))) ∧
      (∀ M (m' m'' : List ℝ → ℝ → ℝ), (∀ r ∈ s.cfg.samples, ∀ t ∈ Set.Icc (0 : ℝ) 1, HasDerivAt (fun t => mu (r.set f t)) (m' r t) t ∧ HasDerivAt (m' r) (m'' r t) t ∧ |m'' r t| ≤ M) →
        ∀ t' ∈ Set.Icc (0 : ℝ) 1,
        (meanOver s.cfg.samples fun r => mu (r.set f t)) ≤ (meanOver s.cfg.samples fun r => mu (r.set f t')) + M / (8 * ((s.cfg.perAxis : ℝ) - 1) ^ 2)) ∧
      ∀ t₀, StrictAntiOn (fun t => meanOver s.cfg.samples fun r => mu (r.set f t)) (Set.Icc 0 t₀) → StrictMonoOn (fun t => meanOver s.cfg.samples fun r => mu (r.set f t)) (Set.Icc t₀ 1) →
        t₀ ∈ Set.Icc (0 : ℝ) 1 → |t - t₀| < 1 / ((s.cfg.perAxis : ℝ) - 1) := by
  obtain ⟨idx, grid, x, y, v, hidx, hgr, -, hcurve, hvalid, -, hl, hat⟩ := pdp_core hs hi hc
  rw [hsel] at hidx hgr
  obtain rfl := idx_one hc.valid.wf hf hidx
  rw [List.length_singleton, gridPoints_one] at hgr
  obtain rfl := Except.ok.inj hgr
  rw [List.length_map, linspace_length] at hl
  have hne : x ≠ [] := by
    rintro rfl
    simp at hl
    omega
  have hyl : y.length = s.cfg.perAxis := (hvalid.values).trans hl
  obtain ⟨i, m, row, z, hbest, hrow, hz, hdraw⟩ := C74_one hvalid hne hsel hax color
  dsimp only at hbest hrow
  have hil : i < s.cfg.perAxis := by rw [← hyl]; exact (List.getElem?_eq_some_iff.1 hbest.1).1
  have hval : ∀ j < s.cfg.perAxis, y[j]? = some (meanOver s.cfg.samples fun r => mu (r.set f (gridValue s.cfg.perAxis j))) := by
    intro j hj
    obtain ⟨-, h2, -⟩ := hat j [gridValue s.cfg.perAxis j] (by rw [List.getElem?_map, linspace_gridValue hj]; rfl)
    exact h2
  obtain ⟨F, hF⟩ : ∃ F : ℝ → ℝ, F = fun t => meanOver s.cfg.samples fun r => mu (r.set f t) := ⟨_, rfl⟩
  have hFt : ∀ t, (meanOver s.cfg.samples fun r => mu (r.set f t)) = F t := fun t => by rw [hF]
  simp only [hFt] at hval ⊢
  have hm : m = F (gridValue s.cfg.perAxis i) := Option.some.inj (hbest.1.symm.trans (hval i hil))
  have hmin : ∀ j < s.cfg.perAxis, F (gridValue s.cfg.perAxis i) ≤ F (gridValue s.cfg.perAxis j) := fun j hj => by
    rw [← hm]; exact FirstBest.le hbest (hval j hj)
  have hzt : z = interpolate l u g (gridValue s.cfg.perAxis i) := by
    obtain ⟨h1, -, -⟩ := hat i [gridValue s.cfg.perAxis i] (by rw [List.getElem?_map, linspace_gridValue hil]; rfl)
    have h3 := h1 0 hp f (by rw [hsel]; rfl) hf
    obtain ⟨f', l', u', g', e, hf', hk', he, rfl⟩ := hz
    have h4 := h1 0 hp f' (by rw [hsel]; rfl) hf'
    rw [at2, hrow, Option.bind_some, he] at h4
    obtain rfl : e = gridValue s.cfg.perAxis i := by simpa using Option.some.inj h4
    have : l' = l ∧ u' = u ∧ g' = g := by
      rcases hk with hk | hk <;> rcases hk' with hk' | hk' <;> rw [hk] at hk' <;> cases hk' <;> exact ⟨rfl, rfl, rfl⟩
    obtain ⟨rfl, rfl, rfl⟩ := this
    rfl
  have hn1 : (0 : ℝ) < (s.cfg.perAxis : ℝ) - 1 := by
    have : (2 : ℝ) ≤ s.cfg.perAxis := by exact_mod_cast hn
    linarith
  refine ⟨_, gridValue s.cfg.perAxis i, hcurve, gridValue_mem hn hil, by rw [hdraw, hzt], fun C hC t' ht' => ?_, fun M m' m'' hM t' ht' => ?_, fun t₀ h1 h2 h0 => ?_⟩
  · obtain ⟨a, b, w, ha, hb, hab, w0, w1, rfl, hle⟩ := grid_chord hn hmin ht'
    have hpos : 0 < b - a := by rw [hab]; positivity
    have := chord_lipschitz (F := F) (fun t ht t' ht' => by
      rw [hF]
      exact meanOver_lipschitz (m := fun r t => mu (r.set f t)) hc.samples fun r hr => hC r hr t ht t' ht') ha hb (by linarith) w0 w1
    have e : C * (b - a) / 2 = C / (2 * ((s.cfg.perAxis : ℝ) - 1)) := by rw [hab]; field_simp
    rw [← e]
    linarith [(abs_le.1 this).2]
  · obtain ⟨a, b, w, ha, hb, hab, w0, w1, rfl, hle⟩ := grid_chord hn hmin ht'
    have := chord_smooth (F := F) (F' := fun t => meanOver s.cfg.samples fun r => m' r t)
      (F'' := fun t => meanOver s.cfg.samples fun r => m'' r t) (fun t ht => by rw [hF]; exact meanOver_deriv _ fun r hr => (hM r hr t ht).1)
      (fun t ht => meanOver_deriv _ fun r hr => (hM r hr t ht).2.1) (fun t ht => meanOver_abs_le hc.samples fun r hr => (hM r hr t ht).2.2) ha hb w0 w1
    have e : M * (b - a) ^ 2 / 8 = M / (8 * ((s.cfg.perAxis : ℝ) - 1) ^ 2) := by rw [hab]; field_simp
    rw [← e]
    linarith [(abs_le.1 this).2]
  · have hgv : ∀ j, gridValue s.cfg.perAxis j = (j : ℝ) / ((s.cfg.perAxis : ℝ) - 1) := fun j => by rw [gridValue, if_neg (by omega)]
    have hti := gridValue_mem hn hil
    by_contra hcon
    rw [not_lt, le_abs] at hcon
    rcases hcon with hcon | hcon
    · have hpos : 0 < gridValue s.cfg.perAxis i := by
        have : 0 < 1 / ((s.cfg.perAxis : ℝ) - 1) := by positivity
        linarith [h0.1]
      obtain ⟨j, rfl⟩ : ∃ j, i = j + 1 := by
        refine ⟨i - 1, ?_⟩
        have : i ≠ 0 := by rintro rfl; simp [hgv] at hpos
        omega
      have hs' : gridValue s.cfg.perAxis (j + 1) - gridValue s.cfg.perAxis j = 1 / ((s.cfg.perAxis : ℝ) - 1) := by rw [hgv, hgv]; push_cast; ring
      have hlt : gridValue s.cfg.perAxis j < gridValue s.cfg.perAxis (j + 1) := by
        have : 0 < 1 / ((s.cfg.perAxis : ℝ) - 1) := by positivity
        linarith
      exact absurd (h2 ⟨by linarith, hlt.le.trans hti.2⟩ ⟨by linarith, hti.2⟩ hlt) (not_lt.2 (hmin j (by omega)))
    · have hlt1 : gridValue s.cfg.perAxis i < 1 := by
        have : 0 < 1 / ((s.cfg.perAxis : ℝ) - 1) := by positivity
        linarith [h0.2]
      have hi1 : i + 1 < s.cfg.perAxis := by
        by_contra hh
        have : s.cfg.perAxis = i + 1 := by omega
        rw [hgv, this, div_lt_one (by rw [← this]; exact hn1)] at hlt1
        push_cast at hlt1
        linarith
      have hs' : gridValue s.cfg.perAxis (i + 1) - gridValue s.cfg.perAxis i = 1 / ((s.cfg.perAxis : ℝ) - 1) := by rw [hgv, hgv]; push_cast; ring
      have hlt : gridValue s.cfg.perAxis i < gridValue s.cfg.perAxis (i + 1) := by
        have : 0 < 1 / ((s.cfg.perAxis : ℝ) - 1) := by positivity
        linarith
      exact absurd (h1 ⟨hti.1, by linarith⟩ ⟨hti.1.trans hlt.le, by linarith⟩ hlt) (not_lt.2 (hmin (i + 1) hi1))

/-- **C196** The marked minimum of a PDP of two hyperparameters: one point, and nowhere between the bounds is the average of the means smaller by more than `C / (2 (n - 1))`, if the
means change by at most `C` times the larger of the changes of the two normalised hyperparameters. -/
theorem C196_two {s : PdpState ℝ} (hs : PdpFresh s) (hi : s.ice = none) {mu sd : List ℝ → ℝ} (hc : Plottable s.cfg mu sd) {p q : Hp ℝ}
    (hsel : s.cfg.selected = [p, q]) (hn : 2 ≤ s.cfg.perAxis) {l u l' u' : ℝ} {g g' : Bool}
    (hk : p.kind = .float l u g ∨ p.kind = .integer l u g) (hk' : q.kind = .float l' u' g' ∨ q.kind = .integer l' u' g') {f f' : Nat}
    (hf : IsFeature s.cfg.space p f) (hf' : IsFeature s.cfg.space q f') {ax ax' : Ax ℝ}
    (hax : checkAndSetAxis [p, q] true "Prediction" ax = (ax', .ok ())) (color : String) :
    ∃ c a b, (pdpCurve s).2 = .ok c ∧ a ∈ Set.Icc (0 : ℝ) 1 ∧ b ∈ Set.Icc (0 : ℝ) 1 ∧
      curveIncumbent color c ax = (ax'.draw [.points color [interpolate l u g a] [interpolate l' u' g' b]], .ok ()) ∧
      ∀ C, 0 ≤ C → (∀ r ∈ s.cfg.samples, ∀ a ∈ Set.Icc (0 : ℝ) 1, ∀ a' ∈ Set.Icc (0 : ℝ) 1, ∀ b ∈ Set.Icc (0 : ℝ) 1, ∀ b' ∈ Set.Icc (0 : ℝ) 1,
          |mu ((r.set f a).set f' b) - mu ((r.set f a').set f' b')| ≤ C * max |a - a'| |b - b'|) →
        ∀ a' ∈ Set.Icc (0 : ℝ) 1, ∀ b' ∈ Set.Icc (0 : ℝ) 1, (meanOver s.cfg.samples fun r => mu ((r.set f a).set f' b)) ≤
          (meanOver s.cfg.samples fun r => mu ((r.set f a').set f' b')) + C / (2 * ((s.cfg.perAxis : ℝ) - 1)) := by
  obtain ⟨idx, grid, x, y, v, hidx, hgr, hfull, hcurve, hvalid, -, hl, hat⟩ := pdp_core hs hi hc
  rw [hsel] at hidx hgr hfull
  obtain rfl := idx_two hc.valid.wf hf hf' hidx
  have hn1 : (0 : ℝ) < (s.cfg.perAxis : ℝ) - 1 := by
    have : (2 : ℝ) ≤ s.cfg.perAxis := by exact_mod_cast hn
    linarith
  have hmem : ∀ i < s.cfg.perAxis, ∀ j < s.cfg.perAxis, [gridValue s.cfg.perAxis i, gridValue s.cfg.perAxis j] ∈ grid := by
    intro i hi j hj
    refine (hfull.2 _).2 ⟨rfl, ?_⟩
    simp only [List.mem_cons, List.not_mem_nil, or_false, forall_eq_or_imp, forall_eq]
    exact ⟨⟨i, hi, rfl⟩, ⟨j, hj, rfl⟩⟩
  have hne : x ≠ [] := by
    rintro rfl
    have : grid = [] := List.length_eq_zero_iff.1 (by simpa using hl.symm)
    have h0 := hmem 0 (by omega) 0 (by omega)
    rw [this] at h0
    simp at h0
  have hyl : y.length = grid.length := (hvalid.values).trans hl
  obtain ⟨i, m, row, z, z', hbest, hrow, hz, hz', hdraw⟩ := C74_two hvalid hne hsel hax color
  dsimp only at hbest hrow
  have hil : i < grid.length := by rw [← hyl]; exact (List.getElem?_eq_some_iff.1 hbest.1).1
  obtain ⟨a, b, ha, hb, hgi⟩ : ∃ a b, a ∈ Set.Icc (0 : ℝ) 1 ∧ b ∈ Set.Icc (0 : ℝ) 1 ∧ grid[i]? = some [a, b] := by
    obtain ⟨h1, h2⟩ := (hfull.2 grid[i]).1 (List.getElem_mem hil)
    rw [List.getElem?_eq_getElem hil]
    match grid[i], h1, h2 with
    | [a, b], _, h2 =>
      simp only [List.mem_cons, List.not_mem_nil, or_false, forall_eq_or_imp, forall_eq] at h2
      obtain ⟨⟨i1, hi1, rfl⟩, ⟨i2, hi2, rfl⟩⟩ := h2
      exact ⟨_, _, gridValue_mem hn hi1, gridValue_mem hn hi2, rfl⟩
  have hval : ∀ (j : Nat) a b, grid[j]? = some [a, b] → y[j]? = some (meanOver s.cfg.samples fun r => mu ((r.set f a).set f' b)) := by
    intro j a b hj
    obtain ⟨-, h2, -⟩ := hat j [a, b] hj
    exact h2
  have hnat : ∀ {hp : Hp ℝ} {l u : ℝ} {g : Bool} {k : Nat} {e : ℝ}, (hp.kind = .float l u g ∨ hp.kind = .integer l u g) → s.cfg.selected[k]? = some hp →
      [a, b][k]? = some e → ∀ {z}, NaturalAt s.cfg.space hp row z → z = interpolate l u g e := by
    intro hp l u g k e hk hsk hek z hz
    obtain ⟨h1, -, -⟩ := hat i [a, b] hgi
    obtain ⟨f', l', u', g', e', hf', hk', he, rfl⟩ := hz
    have h4 := h1 k hp f' hsk hf'
    rw [at2, hrow, Option.bind_some, he, hek] at h4
    obtain rfl := Option.some.inj h4
    have : l' = l ∧ u' = u ∧ g' = g := by
      rcases hk with hk | hk <;> rcases hk' with hk' | hk' <;> rw [hk] at hk' <;> cases hk' <;> exact ⟨rfl, rfl, rfl⟩
    obtain ⟨rfl, rfl, rfl⟩ := this
    rfl
  refine ⟨_, a, b, hcurve, ha, hb, ?_, fun C hC0 hC a' ha' b' hb' => ?_⟩
  · rw [hdraw, hnat hk (k := 0) (e := a) (by rw [hsel]; rfl) rfl hz, hnat hk' (k := 1) (e := b) (by rw [hsel]; rfl) rfl hz']
  · obtain ⟨i1, hi1, d1⟩ := nearest_step hn ha'.1 ha'.2
    obtain ⟨i2, hi2, d2⟩ := nearest_step hn hb'.1 hb'.2
    have hgv : ∀ j : Nat, (j : ℝ) / ((s.cfg.perAxis : ℝ) - 1) = gridValue s.cfg.perAxis j := fun j => by rw [gridValue, if_neg (by omega)]
    rw [hgv] at d1 d2
    obtain ⟨j, hj⟩ := List.getElem?_of_mem (hmem i1 hi1 i2 hi2)
    have h1 := FirstBest.le hbest (hval j _ _ hj)
    rw [Option.some.inj (hbest.1.symm.trans (hval i a b hgi))] at h1
    refine h1.trans ?_
    have := meanOver_abs_le hc.samples (m := fun r => mu ((r.set f (gridValue s.cfg.perAxis i1)).set f' (gridValue s.cfg.perAxis i2)) - mu ((r.set f a').set f' b'))
      (M := C / (2 * ((s.cfg.perAxis : ℝ) - 1))) fun r hr => (hC r hr _ (gridValue_mem hn hi1) _ ha' _ (gridValue_mem hn hi2) _ hb').trans (by
        rw [abs_sub_comm, abs_sub_comm _ b', div_eq_mul_one_div]
        exact mul_le_mul_of_nonneg_left (max_le d1 d2) hC0)
    have e : (meanOver s.cfg.samples fun r => mu ((r.set f (gridValue s.cfg.perAxis i1)).set f' (gridValue s.cfg.perAxis i2)) - mu ((r.set f a').set f' b')) =
        (meanOver s.cfg.samples fun r => mu ((r.set f (gridValue s.cfg.perAxis i1)).set f' (gridValue s.cfg.perAxis i2))) - meanOver s.cfg.samples fun r => mu ((r.set f a').set f' b') := by
      exact meanOver_sub _ _ _
    rw [e] at this
    linarith [(abs_le.1 this).2]

/-- two samples, four grid points: the average (t - 1/2)^2 + 1/16 of the means is smallest between the grid points. The vertical line is at most a third of the range off, and what
it marks is at most 1/36 more than the minimum (which is what it is at the grid points 1/3 and 2/3). -/
example : ∃ c t, (pdpCurve (⟨⟨[⟨"x1", .float 0 10 false⟩, ⟨"x2", .float 0 1 false⟩], [⟨"x1", .float 0 10 false⟩], [[0, 1 / 4], [1 / 2, 3 / 4]], 2, 4, 4, false,
      fun X => .ok (X.map fun r => (r.getD 0 0 - r.getD 1 0) ^ 2, X.map fun _ => 1)⟩, none, none, none, none⟩ : PdpState ℝ)).2 = .ok c ∧
    curveIncumbent "black" c Ax.new = ((⟨"x1", "Prediction", false, false, some (0, 10), none, []⟩ : Ax ℝ).draw [.vline "black" (10 * t)], .ok ()) ∧
    |t - 1 / 2| < 1 / 3 ∧ (t - 1 / 2) ^ 2 ≤ 1 / 36 := by
  have hwf : ConfigSpace.WF ([⟨"x1", .float 0 10 false⟩, ⟨"x2", .float 0 1 false⟩] : ConfigSpace ℝ) := by simp [ConfigSpace.WF]
  have hc : Plottable (⟨[⟨"x1", .float 0 10 false⟩, ⟨"x2", .float 0 1 false⟩], [⟨"x1", .float 0 10 false⟩], [[0, 1 / 4], [1 / 2, 3 / 4]], 2, 4, 4, false,
      fun X => .ok (X.map fun r => (r.getD 0 0 - r.getD 1 0) ^ 2, X.map fun _ => 1)⟩ : IceCfg ℝ) (fun r => (r.getD 0 0 - r.getD 1 0) ^ 2) fun _ => 1 := by
    refine ⟨⟨hwf, by simp, by simp, by simp, by simp, rfl, rfl⟩, ?_, ?_, by simp, by norm_num, fun _ _ _ => rfl⟩
    · intro hp hm
      simp only [List.mem_cons, List.not_mem_nil, or_false] at hm
      rcases hm with rfl | rfl
      · exact ⟨0, 10, false, hwf, ⟨_, by simp, rfl, .inl rfl⟩, by norm_num, by norm_num⟩
      · exact ⟨0, 1, false, hwf, ⟨_, by simp, rfl, .inl rfl⟩, by norm_num, by simp⟩
    · intro r hr e he
      simp only [List.mem_cons, List.not_mem_nil, or_false] at hr
      rcases hr with rfl | rfl <;> simp only [List.mem_cons, List.not_mem_nil, or_false] at he <;> rcases he with rfl | rfl <;> norm_num
  obtain ⟨c, t, h1, h2, h3, -, h4, h5⟩ := C196_one (s := ⟨_, none, none, none, none⟩) ⟨rfl, rfl, rfl⟩ rfl hc (hp := ⟨"x1", .float 0 10 false⟩) rfl (.inl rfl) (f := 0)
    ⟨_, rfl, rfl⟩ (by norm_num) (ax := Ax.new) (ax' := ⟨"x1", "Prediction", false, false, some (0, 10), none, []⟩) rfl "black"
  have hF : ∀ t : ℝ, (meanOver [[0, 1 / 4], [1 / 2, 3 / 4]] fun r => ((r.set 0 t).getD 0 0 - (r.set 0 t).getD 1 0) ^ 2) = (t - 1 / 2) ^ 2 + 1 / 16 := by
    intro t
    simp [meanOver]
    ring
  simp only [hF] at h4 h5
  refine ⟨c, t, h1, by rw [h3]; simp [interpolate, mul_comm], ?_, ?_⟩
  · have := h5 (1 / 2) (fun a ha b hb hab => by nlinarith [ha.2, hb.2, ha.1, hb.1]) (fun a ha b hb hab => by nlinarith [ha.2, hb.2, ha.1, hb.1]) ⟨by norm_num, by norm_num⟩
    norm_num at this ⊢
    exact this
  · have := h4 2 (fun r t => 2 * (t - r.getD 1 0)) (fun _ _ => 2) (by
      intro r hr t ht
      have : ∃ a b, r = [a, b] := by
        simp only [List.mem_cons, List.not_mem_nil, or_false] at hr
        rcases hr with rfl | rfl <;> exact ⟨_, _, rfl⟩
      obtain ⟨a, b, rfl⟩ := this
      simp only [List.set_cons_zero, List.getD_cons_zero, List.getD_cons_succ]
      refine ⟨?_, ?_, by norm_num⟩
      · have := ((hasDerivAt_id t).sub_const b).fun_pow 2
        simpa using this
      · have := ((hasDerivAt_id t).sub_const b).const_mul 2
        simpa using this) (1 / 2) ⟨by norm_num, by norm_num⟩
    norm_num at this ⊢
    linarith

/-- two hyperparameters, five values of each: the marked point is within 1/4 of the smallest distance from the antidiagonal -/
example : ∃ c a b, (pdpCurve (⟨⟨[⟨"x1", .float 0 10 false⟩, ⟨"x2", .float 0 1 false⟩], [⟨"x1", .float 0 10 false⟩, ⟨"x2", .float 0 1 false⟩], [[0, 1 / 4]], 1, 5, 25, false,
      fun X => .ok (X.map fun r => |r.getD 0 0 + r.getD 1 0 - 9 / 8|, X.map fun _ => 1)⟩, none, none, none, none⟩ : PdpState ℝ)).2 = .ok c ∧
    curveIncumbent "white" c Ax.new = ((⟨"x1", "x2", false, false, some (0, 10), some (0, 1), []⟩ : Ax ℝ).draw [.points "white" [10 * a] [b]], .ok ()) ∧ |a + b - 9 / 8| ≤ 1 / 4 := by
  have hwf : ConfigSpace.WF ([⟨"x1", .float 0 10 false⟩, ⟨"x2", .float 0 1 false⟩] : ConfigSpace ℝ) := by simp [ConfigSpace.WF]
  have hc : Plottable (⟨[⟨"x1", .float 0 10 false⟩, ⟨"x2", .float 0 1 false⟩], [⟨"x1", .float 0 10 false⟩, ⟨"x2", .float 0 1 false⟩], [[0, 1 / 4]], 1, 5, 25, false,
      fun X => .ok (X.map fun r => |r.getD 0 0 + r.getD 1 0 - 9 / 8|, X.map fun _ => 1)⟩ : IceCfg ℝ) (fun r => |r.getD 0 0 + r.getD 1 0 - 9 / 8|) fun _ => 1 := by
    refine ⟨⟨hwf, by simp, by simp, by simp, by simp, rfl, rfl⟩, ?_, ?_, by simp, by norm_num, fun _ _ _ => rfl⟩
    · intro hp hm
      simp only [List.mem_cons, List.not_mem_nil, or_false] at hm
      rcases hm with rfl | rfl
      · exact ⟨0, 10, false, hwf, ⟨_, by simp, rfl, .inl rfl⟩, by norm_num, by norm_num⟩
      · exact ⟨0, 1, false, hwf, ⟨_, by simp, rfl, .inl rfl⟩, by norm_num, by simp⟩
    · intro r hr e he
      simp only [List.mem_cons, List.not_mem_nil, or_false] at hr
      subst hr
      simp only [List.mem_cons, List.not_mem_nil, or_false] at he
      rcases he with rfl | rfl <;> norm_num
  obtain ⟨c, a, b, h1, ha, hb, h2, h3⟩ := C196_two (s := ⟨_, none, none, none, none⟩) ⟨rfl, rfl, rfl⟩ rfl hc (p := ⟨"x1", .float 0 10 false⟩) (q := ⟨"x2", .float 0 1 false⟩) rfl
    (by norm_num) (.inl rfl) (.inl rfl) (f := 0) (f' := 1) ⟨_, rfl, rfl⟩ ⟨_, rfl, rfl⟩ (ax := Ax.new) (ax' := ⟨"x1", "x2", false, false, some (0, 10), some (0, 1), []⟩) rfl "white"
  refine ⟨c, a, b, h1, by rw [h2]; simp [interpolate, mul_comm], ?_⟩
  have := h3 2 (by norm_num) (by
    intro r hr a ha a' ha' b hb b' hb'
    simp only [List.mem_cons, List.not_mem_nil, or_false] at hr
    subst hr
    simp only [List.set_cons_zero, List.set_cons_succ, List.getD_cons_zero, List.getD_cons_succ]
    refine (abs_abs_sub_abs_le _ _).trans ?_
    rw [show a + b - 9 / 8 - (a' + b' - 9 / 8) = (a - a') + (b - b') by ring, two_mul]
    exact (abs_add_le _ _).trans (add_le_add (le_max_left _ _) (le_max_right _ _))) (9 / 16) ⟨by norm_num, by norm_num⟩ (9 / 16) ⟨by norm_num, by norm_num⟩
  simp [meanOver] at this
  norm_num at this ⊢
  exact this

end marked

end PyPDP
