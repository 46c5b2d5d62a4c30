/-
C180: a Bayesian optimisation that proposes a point near an evaluated one has nearly found the best candidate, and sooner or later it does.
-/
import Verif.Props.GpAny
import Verif.Props.Main
import Mathlib.Combinatorics.Pigeonhole
import Mathlib.Data.Set.Finite.List

namespace PyPDP
open Spec

variable {S : Type}

/-- how far two rows are from each other after standardisation, if no entry differs by more than `e` and no column has a standard deviation below `w` -/
theorem standardised_close {d : Nat} {X : List (List ℝ)} {r q : List ℝ} {e w : ℝ} (hw : 0 < w) (he : ∀ j < d, |r.getD j 0 - q.getD j 0| ≤ e)
    (hs : ∀ j < d, w ≤ spread (X.map fun q => q.getD j 0)) : rowDistance (standardised d X r) (standardised d X q) ≤ √d * (e / w) := by
  have hterm : ∀ i : Nat, i < d → ((r.getD i 0 - targetMean (X.map fun q => q.getD i 0)) / spread (X.map fun q => q.getD i 0)
      - (q.getD i 0 - targetMean (X.map fun q => q.getD i 0)) / spread (X.map fun q => q.getD i 0)) ^ 2 ≤ (e / w) ^ 2 := by
    intro i hi
    have h1 := he i hi
    have h2 := hs i hi
    rw [← sub_div, sub_sub_sub_cancel_right, ← sq_abs, abs_div, abs_of_pos (hw.trans_le h2)]
    exact pow_le_pow_left₀ (div_nonneg (abs_nonneg _) (hw.trans_le h2).le) (div_le_div₀ ((abs_nonneg _).trans h1) h1 hw h2) 2
  unfold rowDistance standardised
  rw [List.zipWith_map, List.zipWith_self]
  rcases Nat.eq_zero_or_pos d with rfl | hd
  · simp
  have he0 : 0 ≤ e := (abs_nonneg _).trans (he 0 hd)
  rw [← Real.sqrt_sq (show 0 ≤ e / w by positivity), ← Real.sqrt_mul (by positivity)]
  apply Real.sqrt_le_sqrt
  have := List.sum_le_card_nsmul ((List.range d).map fun i => ((r.getD i 0 - targetMean (X.map fun q => q.getD i 0)) / spread (X.map fun q => q.getD i 0)
      - (q.getD i 0 - targetMean (X.map fun q => q.getD i 0)) / spread (X.map fun q => q.getD i 0)) ^ 2) ((e / w) ^ 2) (by
    intro u hu
    obtain ⟨i, hi, rfl⟩ := List.mem_map.1 hu
    exact hterm i (List.mem_range.1 hi))
  rwa [List.length_map, List.length_range, nsmul_eq_mul] at this

/-- the cell of a grid with `M` cells per axis that a row is in -/
noncomputable def cellOf (d : Nat) {M : Nat} (hM : 1 ≤ M) (v : List ℝ) : Fin d → Fin M := fun k => ⟨min ⌊v.getD k 0 * M⌋₊ (M - 1), by omega⟩

theorem cellOf_close {d M : Nat} {hM : 1 ≤ M} {v w : List ℝ} (hv : ∀ x ∈ v, 0 ≤ x ∧ x ≤ 1) (hw : ∀ x ∈ w, 0 ≤ x ∧ x ≤ 1) (h : cellOf d hM v = cellOf d hM w) :
    ∀ k < d, |w.getD k 0 - v.getD k 0| ≤ 1 / M := by
  have hM0 : (0 : ℝ) < M := by exact_mod_cast hM
  intro k hk
  have hc := congrArg Fin.val (congrFun h ⟨k, hk⟩)
  dsimp only [cellOf] at hc
  have hbox : ∀ l : List ℝ, (∀ x ∈ l, 0 ≤ x ∧ x ≤ 1) →
      ((min ⌊l.getD k 0 * M⌋₊ (M - 1) : ℕ) : ℝ) ≤ l.getD k 0 * M ∧ l.getD k 0 * M ≤ (min ⌊l.getD k 0 * M⌋₊ (M - 1) : ℕ) + 1 := by
    intro l hl
    have hx : 0 ≤ l.getD k 0 ∧ l.getD k 0 ≤ 1 := by
      rw [List.getD_eq_getElem?_getD]
      cases hk : l[k]? with
      | none => simp
      | some x => simpa using hl x (List.mem_of_getElem? hk)
    have h0 : 0 ≤ l.getD k 0 * M := mul_nonneg hx.1 hM0.le
    have hf := Nat.floor_le h0
    have hc := (Nat.lt_floor_add_one (l.getD k 0 * M)).le
    refine ⟨le_trans (by exact_mod_cast min_le_left _ _) hf, ?_⟩
    rcases le_total ⌊l.getD k 0 * M⌋₊ (M - 1) with h | h
    · rw [min_eq_left h]; exact hc
    · rw [min_eq_right h, Nat.cast_sub hM, Nat.cast_one, sub_add_cancel]
      exact mul_le_of_le_one_left hM0.le hx.2
  have hi := hbox v hv
  have hj := hbox w hw
  rw [← hc] at hj
  have habs : |w.getD k 0 - v.getD k 0| * M = |w.getD k 0 * M - v.getD k 0 * M| := by rw [← sub_mul, abs_mul, abs_of_pos hM0]
  rw [le_div_iff₀ hM0, habs, abs_le]
  constructor <;> linarith [hi.1, hi.2, hj.1, hj.2]

/-- **C180** Of more than `M ^ d` points of the unit cube with `d` axes, two differ by at most `1 / M` on every axis. -/
theorem C180_two_close {d M : Nat} (hM : 1 ≤ M) {n : Nat} (hn : M ^ d < n) (v : Fin n → List ℝ) (h01 : ∀ i, ∀ x ∈ v i, 0 ≤ x ∧ x ≤ 1) :
    ∃ i j : Fin n, i < j ∧ ∀ k < d, |(v j).getD k 0 - (v i).getD k 0| ≤ 1 / M := by
  obtain ⟨i, j, hij, hcell⟩ := Fintype.exists_ne_map_eq_of_card_lt (fun i => cellOf d hM (v i)) (by simpa using hn)
  rcases lt_or_gt_of_ne hij with h | h
  · exact ⟨i, j, h, cellOf_close (h01 i) (h01 j) hcell⟩
  · exact ⟨j, i, h, cellOf_close (h01 j) (h01 i) hcell.symm⟩

/-- **C180** A certificate: let a Bayesian optimisation with the default surrogate and a lower confidence bound with parameter `tau` acquire a point at (standardised) distance at most `δ` from
an evaluated one. If the kernel can represent the objective with size at most `tau`, then no candidate of this step is better by more than `2 tau · spread · √(3 (δ / ℓ)² + 1e-8)`. -/
theorem C180_certificate (ℓ : List (List ℝ) → List ℝ → ℝ) (hℓ : ∀ Z t, 0 < ℓ Z t) {d : Nat} (hd : 1 ≤ d) {tau : ℝ}
    {initialPoints : Int} {names : List String} {drawer acqDrawer : Drawer (Config ℝ) S} {nCandidates : Int}
    (hd2 : ∀ s n, ∀ c ∈ (acqDrawer.draw s n).1, c.vector.length = d) {env : BOEnv (Config ℝ) ℝ GpSurrogate S} {m : GpSurrogate}
    (henv : gpSampler (fun Z t => matern (ℓ Z t)) (.lcb tau) true initialPoints names drawer acqDrawer nCandidates = .ok (env, m))
    {cs : List (Config ℝ)} (hw : ∀ c ∈ cs, c.vector.length = d) {f : List ℝ → ℝ} {c : Config ℝ} {X : List (List ℝ)} (hX : X = cs.map Config.vector)
    (h : IsAcquired env cs (X.map f) c) {R : Set (List ℝ)}
    (hf : Representable (chosenKernel (fun Z t => matern (ℓ Z t)) d X (X.map f)) d X (X.map f) f R tau) (hXR : ∀ v ∈ X, v ∈ R)
    (hR : ∀ s n, ∀ c ∈ (acqDrawer.draw s n).1, c.vector ∈ R) {l : ℝ}
    (hl : l = ℓ (X.map (standardised d X)) ((X.map f).map fun v => (v - targetMean (X.map f)) / spread (X.map f))) {δ : ℝ}
    (hδ : ∃ v ∈ X, rowDistance (standardised d X c.vector) (standardised d X v) ≤ δ) :
    ∃ r, c ∈ (acqDrawer.draw r nCandidates.toNat).1 ∧ ∀ c' ∈ (acqDrawer.draw r nCandidates.toNat).1,
      f c.vector ≤ f c'.vector + 2 * tau * (spread (X.map f) * √(3 * (δ / l) ^ 2 + 1 / 10 ^ 8)) := by
  subst hX
  obtain ⟨_, a, p, hf, htau⟩ := hf
  have hlen : ((cs.map Config.vector).map f).length = cs.length := by simp
  obtain ⟨s, mu, sd, eta, r, hfit, hrow, hpos, -, -, i, hi, hmax, -⟩ := C101_acquired ℓ hℓ hd hd2 henv hw hlen h
  have hc := List.mem_of_getElem? hi
  refine ⟨r, hc, fun c' hc' => ?_⟩
  have hne : cs ≠ [] := by
    rintro rfl
    obtain ⟨v, hv, -⟩ := hδ
    simp at hv
  have hdata := configs_data hd hne hw hlen
  have hpred : ∀ v : List ℝ, v.length = d → s.predict [v] = .ok ([mu v], [sd v]) := fun v hv => by
    rw [hrow [v] (by simp) (by simpa using hv)]; rfl
  have htau0 : 0 ≤ tau := (Real.sqrt_nonneg _).trans htau
  have hcov : ∀ c ∈ (acqDrawer.draw r nCandidates.toNat).1, |mu c.vector - f c.vector| ≤ tau * sd c.vector := fun c hc =>
    (C179_cover (fun Z t => (matern_unit (hℓ Z t) d).1) hdata hfit hf hXR (hR _ _ c hc) (hpred _ (hd2 _ _ c hc))).trans
      (mul_le_mul_of_nonneg_right htau (hpos _ (hd2 _ _ c hc)).le)
  have hle := not_lt.1 (hmax c' hc')
  simp only [acqMeaning, if_true] at hle
  have h1 := abs_le.1 (hcov c hc)
  have h2 := abs_le.1 (hcov c' hc')
  obtain ⟨v, hv, hvd⟩ := hδ
  have hσ := C175_matern ℓ hℓ hdata hfit (hpred _ (hd2 _ _ c hc)) hv hl
  have hl0 : 0 < l := hl ▸ hℓ _ _
  have hsp := spread_pos hdata.targets_ne
  have hmono : √(3 * (rowDistance (standardised d (cs.map Config.vector) c.vector) (standardised d (cs.map Config.vector) v) / l) ^ 2 + 1 / 10 ^ 8)
      ≤ √(3 * (δ / l) ^ 2 + 1 / 10 ^ 8) := by
    have h0 : 0 ≤ rowDistance (standardised d (cs.map Config.vector) c.vector) (standardised d (cs.map Config.vector) v) := Real.sqrt_nonneg _
    apply Real.sqrt_le_sqrt
    gcongr
  have hσ' := mul_le_mul_of_nonneg_left (hσ.trans (mul_le_mul_of_nonneg_left hmono hsp.le)) htau0
  linarith [h1.1, h1.2, h2.1, h2.2]

/-- the points of a run: as many as asked for, with their values, all drawn from the config spaces, the ones after the initial design acquired from those before -/
theorem gpRun_points {choose : List (List ℝ) → List ℝ → Kernel} {kind : AcqKind} {minimize : Bool} {initialPoints : Int} (hip : 1 ≤ initialPoints) {names : List String}
    {drawer acqDrawer : Drawer (Config ℝ) S} {nCandidates : Int} {R : Set (List ℝ)} (hd1 : ∀ s n, ∀ c ∈ (drawer.draw s n).1, c.vector ∈ R)
    (hd2 : ∀ s n, ∀ c ∈ (acqDrawer.draw s n).1, c.vector ∈ R) {env : BOEnv (Config ℝ) ℝ GpSurrogate S} {m : GpSurrogate}
    (henv : gpSampler choose kind minimize initialPoints names drawer acqDrawer nCandidates = .ok (env, m)) {o : Objective (Config ℝ) ℝ} (r : S) {n : Nat}
    (hn : initialPoints.toNat ≤ n) {s : BOState (Config ℝ) ℝ GpSurrogate S} (hs : boSample o env (freshBO r m) n = (s, none)) :
    s.configs.length = n ∧ s.ys = s.configs.map o.value ∧
      (∀ (j : Nat) (c : Config ℝ), initialPoints.toNat ≤ j → s.configs[j]? = some c → IsAcquired env (s.configs.take j) ((s.configs.take j).map o.value) c) ∧
      ∀ c ∈ s.configs, c.vector ∈ R := by
  obtain ⟨⟨⟩, -, hE⟩ := Py.bind_eq_ok.1 henv
  obtain ⟨hE, -⟩ := Prod.mk.inj (Except.ok.inj hE)
  have hipE : env.initialPoints = initialPoints := by rw [← hE]
  have hdrE : env.drawer = drawer := by rw [← hE]
  obtain ⟨acq, e1, e2, e3, e4⟩ := C29_initial_then_acquired o env (by rw [hipE]; omega) r m n hs
  rw [hipE] at e1 e3 e4
  rw [hdrE] at e1 e4
  have hmin : min n initialPoints.toNat = initialPoints.toNat := by omega
  rw [hmin] at e1 e4
  obtain ⟨init, hinit⟩ : ∃ init, init = (drawer.draw r initialPoints.toNat).1 := ⟨_, rfl⟩
  have hil : init.length = initialPoints.toNat := by rw [hinit]; exact drawer.draw_length r _
  rw [← hinit] at e1 e4
  have hlen : s.configs.length = n := by rw [e1, List.length_append, hil, e3]; omega
  have hacq : ∀ (j : Nat) (c : Config ℝ), initialPoints.toNat ≤ j → s.configs[j]? = some c → IsAcquired env (s.configs.take j) ((s.configs.take j).map o.value) c := by
    intro j c hj hc
    rw [e1] at hc ⊢
    exact acquiredSeq_at e4 (by omega) hc
  refine ⟨hlen, e2, hacq, fun c hc => ?_⟩
  obtain ⟨j, hj⟩ := List.mem_iff_getElem?.1 hc
  rcases lt_or_ge j initialPoints.toNat with h | h
  · rw [e1, List.getElem?_append_left (by omega)] at hj
    have := List.mem_of_getElem? hj
    rw [hinit] at this
    exact hd1 _ _ c this
  · obtain ⟨_, _, _, r', -, -, i, hi, -⟩ := hacq j c h hj
    rw [← hE] at hi
    exact hd2 _ _ c (List.mem_of_getElem? hi)

/-- **C180** and that must happen: if a Bayesian optimisation in the unit cube has acquired `M ^ d` points after its initial design, then its incumbent is worse than the best candidate of some
step by at most what the certificate says for points that differ by `1 / M` on every axis. `w`, `L` and `Y` bound the standard deviations of the columns, the length scales and the standard
deviations of the values of all steps. -/
theorem C180_run (ℓ : List (List ℝ) → List ℝ → ℝ) (hℓ : ∀ Z t, 0 < ℓ Z t) {d : Nat} (hd : 1 ≤ d) {tau : ℝ}
    {initialPoints : Int} (hip : 1 ≤ initialPoints) {names : List String} {drawer acqDrawer : Drawer (Config ℝ) S} {nCandidates : Int}
    {R : Set (List ℝ)} (hcube : ∀ v ∈ R, v.length = d ∧ ∀ x ∈ v, 0 ≤ x ∧ x ≤ 1)
    (hd1 : ∀ s n, ∀ c ∈ (drawer.draw s n).1, c.vector ∈ R) (hd2 : ∀ s n, ∀ c ∈ (acqDrawer.draw s n).1, c.vector ∈ R)
    {env : BOEnv (Config ℝ) ℝ GpSurrogate S} {m : GpSurrogate}
    (henv : gpSampler (fun Z t => matern (ℓ Z t)) (.lcb tau) true initialPoints names drawer acqDrawer nCandidates = .ok (env, m))
    {o : Objective (Config ℝ) ℝ} {f : List ℝ → ℝ} (ho : ∀ c, o.value c = f c.vector) (r : S) {n M : Nat} (hM : 1 ≤ M) (hn : initialPoints.toNat + M ^ d ≤ n)
    {s : BOState (Config ℝ) ℝ GpSurrogate S} (hs : boSample o env (freshBO r m) n = (s, none))
    {X : Nat → List (List ℝ)} {y : Nat → List ℝ} (hX : ∀ j, X j = (s.configs.take j).map Config.vector) (hy : ∀ j, y j = (X j).map f)
    (hrep : ∀ j, initialPoints.toNat ≤ j → j < n → Representable (chosenKernel (fun Z t => matern (ℓ Z t)) d (X j) (y j)) d (X j) (y j) f R tau)
    {w L Y : ℝ} (hw0 : 0 < w) (hL0 : 0 < L) (hw : ∀ j, initialPoints.toNat ≤ j → j < n → ∀ k < d, w ≤ spread ((X j).map fun q => q.getD k 0))
    (hL : ∀ j, initialPoints.toNat ≤ j → j < n → L ≤ ℓ ((X j).map (standardised d (X j))) ((y j).map fun v => (v - targetMean (y j)) / spread (y j)))
    (hY : ∀ j, initialPoints.toNat ≤ j → j < n → spread (y j) ≤ Y) :
    ∃ (j : Nat) (c best : Config ℝ) (v : ℝ) (r' : S), initialPoints.toNat ≤ j ∧ j < n ∧ s.configs[j]? = some c ∧ c ∈ (acqDrawer.draw r' nCandidates.toNat).1 ∧
      incumbent true s = .ok (some best, some v) ∧ v ≤ o.value c ∧
      ∀ c' ∈ (acqDrawer.draw r' nCandidates.toNat).1, o.value c ≤ o.value c' + 2 * tau * (Y * √(3 * (√d * (1 / M / w) / L) ^ 2 + 1 / 10 ^ 8)) := by
  obtain ⟨hlen, e2, hacq, hvec⟩ := gpRun_points hip hd1 hd2 henv r (by omega) hs
  obtain ⟨N, hN⟩ : ∃ N, N = n - initialPoints.toNat + 1 := ⟨_, rfl⟩
  have hip1 : 1 ≤ initialPoints.toNat := by omega
  have hidx : ∀ i : Fin N, initialPoints.toNat - 1 + i < s.configs.length := fun i => by have := i.2; omega
  obtain ⟨i, j, hij, hclose⟩ := C180_two_close (d := d) hM (n := N) (by omega) (fun i => (s.configs[initialPoints.toNat - 1 + i]'(hidx i)).vector)
    (fun i => (hcube _ (hvec _ (List.getElem_mem _))).2)
  have hij' : (i : Nat) < j := hij
  obtain ⟨jj, hjj⟩ : ∃ jj, jj = initialPoints.toNat - 1 + (j : Nat) := ⟨_, rfl⟩
  have hjn := hidx j
  have hj1 : initialPoints.toNat ≤ jj := by omega
  have hj2 : jj < n := by omega
  have hcj : s.configs[jj]? = some (s.configs[initialPoints.toNat - 1 + j]'(hidx j)) := by
    rw [hjj]; exact List.getElem?_eq_getElem _
  obtain ⟨c, hc⟩ : ∃ c, c = s.configs[initialPoints.toNat - 1 + j]'(hidx j) := ⟨_, rfl⟩
  obtain ⟨q, hq⟩ : ∃ q, q = s.configs[initialPoints.toNat - 1 + i]'(hidx i) := ⟨_, rfl⟩
  rw [← hc, ← hq] at hclose
  rw [← hc] at hcj
  have hqX : q.vector ∈ X jj := by
    rw [hX]
    refine List.mem_map_of_mem ?_
    rw [List.mem_take_iff_getElem]
    exact ⟨initialPoints.toNat - 1 + i, by omega, hq.symm⟩
  have hya : (s.configs.take jj).map o.value = (X jj).map f := by
    rw [hX, List.map_map]
    exact List.map_congr_left fun c _ => ho c
  have hA := hacq jj c hj1 hcj
  rw [hya] at hA
  have htk : ∀ c ∈ s.configs.take jj, c.vector.length = d := fun c hc => (hcube _ (hvec c (List.mem_of_mem_take hc))).1
  have hXne : X jj ≠ [] := List.ne_nil_of_mem hqX
  have hRj := hrep jj hj1 hj2
  have hwj := hw jj hj1 hj2
  have hLj := hL jj hj1 hj2
  have hYj := hY jj hj1 hj2
  rw [hy] at hRj hLj hYj
  obtain ⟨r', hcm, hall⟩ := C180_certificate ℓ hℓ hd (fun s n c hc => (hcube _ (hd2 s n c hc)).1) henv htk (hX jj) hA hRj
    (fun v hv => by rw [hX] at hv; obtain ⟨c, hc, rfl⟩ := List.mem_map.1 hv; exact hvec c (List.mem_of_mem_take hc)) hd2 rfl
    ⟨q.vector, hqX, standardised_close hw0 hclose hwj⟩
  have hys : s.ys ≠ [] := by
    rw [e2]
    intro h0
    have := congrArg List.length h0
    rw [List.length_map, hlen, List.length_nil] at this
    omega
  obtain ⟨b, best, v, hinc, hb1, hb2, hb3, -⟩ := (C21_incumbent true s (by rw [e2, List.length_map])).2 hys
  refine ⟨jj, c, best, v, r', hj1, hj2, hcj, hcm, hinc, ?_, fun c' hc' => ?_⟩
  · have := hb3 (o.value c) (by rw [e2]; exact List.mem_map_of_mem (List.mem_of_getElem? hcj))
    simpa [Better] using this
  · rw [ho, ho]
    refine (hall c' hc').trans ?_
    have htau0 : 0 ≤ tau := by
      obtain ⟨_, _, _, -, h⟩ := hRj
      exact (Real.sqrt_nonneg _).trans h
    have hsp := spread_pos (y := (X jj).map f) (by simpa using hXne)
    have hM0 : (0 : ℝ) < M := by exact_mod_cast hM
    have hmono : √(3 * (√d * (1 / M / w) / ℓ ((X jj).map (standardised d (X jj))) (((X jj).map f).map fun v => (v - targetMean ((X jj).map f)) / spread ((X jj).map f))) ^ 2 + 1 / 10 ^ 8)
        ≤ √(3 * (√d * (1 / M / w) / L) ^ 2 + 1 / 10 ^ 8) := by
      apply Real.sqrt_le_sqrt
      have h0 : 0 ≤ √(d : ℝ) * (1 / M / w) := by positivity
      have := pow_le_pow_left₀ (div_nonneg h0 (hL0.le.trans hLj)) (div_le_div_of_nonneg_left h0 hL0 hLj) 2
      linarith
    have := mul_le_mul hYj hmono (Real.sqrt_nonneg _) (hsp.le.trans hYj)
    have := mul_le_mul_of_nonneg_left this (show 0 ≤ 2 * tau by linarith)
    linarith

/-- **C180** The condition on `tau` can be met: if all configurations that can be drawn are among finitely many (with floating-point numbers they are), then from some `tau` on it holds for every
run with at most `n` points. -/
theorem C180_enough (ℓ : List (List ℝ) → List ℝ → ℝ) (hℓ : ∀ Z t, 0 < ℓ Z t) {d : Nat} (hd : 1 ≤ d) (f : List ℝ → ℝ) {R : Set (List ℝ)} (hfin : R.Finite)
    (hR : ∀ r ∈ R, r.length = d) (n : Nat) :
    ∃ tau0, ∀ tau, tau0 ≤ tau → ∀ X : List (List ℝ), X ≠ [] → X.length ≤ n → (∀ v ∈ X, v ∈ R) →
      Representable (chosenKernel (fun Z t => matern (ℓ Z t)) d X (X.map f)) d X (X.map f) f R tau := by
  have hone : ∀ X : List (List ℝ), ∃ B, X ≠ [] → (∀ v ∈ X, v ∈ R) → Representable (chosenKernel (fun Z t => matern (ℓ Z t)) d X (X.map f)) d X (X.map f) f R B := by
    intro X
    by_cases h : X ≠ [] ∧ ∀ v ∈ X, v ∈ R
    · obtain ⟨B, hB⟩ := C179_any (hℓ (X.map (standardised d X)) ((X.map f).map fun v => (v - targetMean (X.map f)) / spread (X.map f)))
        (⟨h.1, fun r hr => hR r (h.2 r hr), hd, by simp⟩ : TrainingData d X (X.map f)) f hfin hR
      exact ⟨B, fun _ _ => hB⟩
    · exact ⟨0, fun h1 h2 => absurd ⟨h1, h2⟩ h⟩
  choose B hB using hone
  have hset : {X : List (List ℝ) | X.length ≤ n ∧ ∀ v ∈ X, v ∈ R}.Finite := by
    have : Finite R := hfin
    refine ((List.finite_length_le R n).image (List.map Subtype.val)).subset ?_
    rintro X ⟨h1, h2⟩
    refine ⟨X.attach.map fun v => ⟨v.1, h2 v.1 v.2⟩, by simpa using h1, ?_⟩
    simp
  obtain ⟨t, ht⟩ := (hset.image B).bddAbove
  refine ⟨t, fun tau htau X hne hlen hv => ?_⟩
  obtain ⟨q, a, p, h1, h2⟩ := hB X hne hv
  exact ⟨q, a, p, h1, h2.trans ((ht ⟨X, ⟨hlen, hv⟩, rfl⟩).trans htau)⟩

/-- points 0 and 1 were evaluated with values 0 and 2, the length scale is 1 and `tau` is 10: if the candidates are among these points, then the one that is acquired is 0 -/
example {initialPoints : Int} {names : List String} {drawer acqDrawer : Drawer (Config ℝ) S} {nCandidates : Int} {c0 c1 : Config ℝ} (h0 : c0.vector = [0]) (h1 : c1.vector = [1])
    (hd2 : ∀ s n, ∀ c ∈ (acqDrawer.draw s n).1, c = c0 ∨ c = c1) (hboth : ∀ s, c0 ∈ (acqDrawer.draw s nCandidates.toNat).1)
    {env : BOEnv (Config ℝ) ℝ GpSurrogate S} {m : GpSurrogate}
    (henv : gpSampler (fun _ _ => matern 1) (.lcb 10) true initialPoints names drawer acqDrawer nCandidates = .ok (env, m)) {c : Config ℝ} (h : IsAcquired env [c0, c1] [0, 2] c) :
    c = c0 := by
  obtain ⟨f, hf⟩ : ∃ f : List ℝ → ℝ, f = fun r => 2 * r.getD 0 0 := ⟨_, rfl⟩
  have hy : ([[0], [1]] : List (List ℝ)).map f = [0, 2] := by simp [hf]
  have hX : ([[0], [1]] : List (List ℝ)) = [c0, c1].map Config.vector := by simp [h0, h1]
  have hsp : spread ([0, 1] : List ℝ) = 1 / 2 := by
    unfold spread
    rw [if_neg]
    · have : squares (targetMean [0, 1]) [0, 1] / ([0, 1] : List ℝ).length = (1 / 2) ^ 2 := by norm_num [squares, targetMean]
      rw [this, Real.sqrt_sq (by norm_num)]
    · intro h
      have := h 0 (by simp) 1 (by simp)
      norm_num at this
  have hst : ∀ x : ℝ, standardised 1 [[0], [1]] [x] = [2 * x - 1] := by
    intro x
    simp only [standardised, List.map_cons, List.map_nil, List.range_one, List.getD_cons_zero, hsp]
    norm_num [targetMean]
    ring
  obtain ⟨κ, hκ⟩ : ∃ κ, κ = matern 1 [-1] [1] := ⟨_, rfl⟩
  have hκ' : matern 1 [1] [-1] = κ := by rw [hκ]; exact (C99_matern one_pos 1).1.1 _ _ rfl rfl
  have hκ1 : κ ≤ 98 / 100 := by
    have ht : √((2 : ℝ) ^ 2) = 2 := Real.sqrt_sq (by norm_num)
    have hval : κ = (1 + √3 * 2) * Real.exp (-(√3 * 2)) := by
      rw [hκ]
      have : √((List.zipWith (fun a b : ℝ => (a - b) ^ 2) [-1] [1]).sum) = 2 := by
        rw [← ht]; congr 1; norm_num
      unfold matern
      rw [this, div_one]
    have h3 : 0 ≤ √3 := Real.sqrt_nonneg 3
    have hq := Real.quadratic_le_exp_of_nonneg (show 0 ≤ √3 * 2 by positivity)
    have hsq : √3 ^ 2 = 3 := Real.sq_sqrt (by norm_num)
    have h4 : √3 ≤ 2 := by rw [Real.sqrt_le_left (by norm_num)]; norm_num
    rw [hval, Real.exp_neg, ← div_eq_mul_inv, div_le_iff₀ (Real.exp_pos _)]
    nlinarith
  have hκpos : 0 < 1 - κ := by linarith
  have hk1 : ∀ x : List ℝ, matern 1 x x = 1 := (C99_matern one_pos 1).2.1
  have hrep : Representable (chosenKernel (fun _ _ => matern 1) 1 [[0], [1]] ([[0], [1]].map f)) 1 [[0], [1]] ([[0], [1]].map f) f {[0], [1]} 10 := by
    refine ⟨2, ![-(1 / (1 - κ)), 1 / (1 - κ)], ![[-1], [1]], ⟨fun j => by fin_cases j <;> rfl, ?_⟩, ?_⟩
    · have hm : targetMean ([0, 2] : List ℝ) = 1 := by norm_num [targetMean]
      rintro r (rfl | rfl)
      · rw [hy, exGp_data.2, hm, hst]
        norm_num [kernelSum, chosenKernel, Fin.sum_univ_two, hk1, ← hκ, hf]
        field_simp
        ring
      · rw [hy, exGp_data.2, hm, hst]
        norm_num [kernelSum, chosenKernel, Fin.sum_univ_two, hk1, hκ', hf]
        field_simp
        ring
    · have : ∑ i : Fin 2, ∑ j : Fin 2, (![-(1 / (1 - κ)), 1 / (1 - κ)] : Fin 2 → ℝ) i * (![-(1 / (1 - κ)), 1 / (1 - κ)] : Fin 2 → ℝ) j
          * matern 1 ((![[-1], [1]] : Fin 2 → List ℝ) i) ((![[-1], [1]] : Fin 2 → List ℝ) j) = 2 / (1 - κ) := by
        simp only [Fin.sum_univ_two, Matrix.cons_val_zero, Matrix.cons_val_one, hk1, hκ', ← hκ]
        field_simp
        ring
      rw [kernelNorm, chosenKernel, this, Real.sqrt_le_left (by norm_num), div_le_iff₀ hκpos]
      linarith
  have hall := C180_certificate (fun _ _ => 1) (fun _ _ => one_pos) le_rfl (fun s n c hc => by rcases hd2 s n c hc with rfl | rfl <;> simp [h0, h1]) henv
    (cs := [c0, c1]) (fun c hc => by simp at hc; rcases hc with rfl | rfl <;> simp [h0, h1]) hX (by rw [hy]; exact h) hrep (by simp)
    (fun s n c hc => by rcases hd2 s n c hc with rfl | rfl <;> simp [h0, h1]) rfl (δ := 0)
  have hcc : c = c0 ∨ c = c1 := by
    obtain ⟨_, _, _, r, -, -, i, hi, -⟩ := h
    obtain ⟨⟨⟩, -, hE⟩ := Py.bind_eq_ok.1 henv
    obtain ⟨hE, -⟩ := Prod.mk.inj (Except.ok.inj hE)
    rw [← hE] at hi
    exact hd2 _ _ c (List.mem_of_getElem? hi)
  refine hcc.resolve_right ?_
  rintro rfl
  obtain ⟨r, -, hall⟩ := hall ⟨[1], by simp, by simp [h1, hst, rowDistance]⟩
  have := hall c0 (hboth r)
  rw [h0, h1, hy, exGp_data.2] at this
  have hs : √(3 * (0 / (1 : ℝ)) ^ 2 + 1 / 10 ^ 8) ≤ 1 / 100 := by
    rw [Real.sqrt_le_left (by norm_num)]
    norm_num
  norm_num [hf] at this hs
  linarith

end PyPDP
