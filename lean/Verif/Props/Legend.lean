/-
C120: what the legends list.
-/
import Verif.Lemmas.LegendErase
import Verif.Lemmas.Names
import Verif.Spec.Legend
import Verif.Props.BayesianPlot

namespace PyPDP
open Spec

/-! ### running plots with labels -/

section run
variable {K α β : Type}

theorem LPlot.bind_eq_ok {p : LPlot K α} {f : α → LPlot K β} {la la2 : LAx K} {b : β} :
    (p >>= f) la = (la2, .ok b) ↔ ∃ la1 a, p la = (la1, .ok a) ∧ f a la1 = (la2, .ok b) := by
  show LPlot.bind p f la = _ ↔ _
  unfold LPlot.bind
  constructor
  · intro h
    split at h
    · exact ⟨_, _, by assumption, h⟩
    · cases h
  · rintro ⟨la1, a, h1, h2⟩
    rw [h1]; exact h2

theorem LPlot.of_eq_ok {p : Plot K α} {la la' : LAx K} {a : α} :
    LPlot.of p la = (la', .ok a) ↔ p la.ax = (la'.ax, .ok a) ∧ la'.handles = la.handles := by
  unfold LPlot.of
  constructor
  · intro h
    rw [Prod.mk.injEq] at h
    obtain ⟨rfl, h2⟩ := h
    exact ⟨Prod.ext rfl h2, rfl⟩
  · rintro ⟨h1, h2⟩
    rw [h1]
    exact Prod.ext (by cases la'; cases h2; rfl) rfl

theorem LPlot.lift_bind_eq_ok {r : Py α} {f : α → LPlot K β} {la la2 : LAx K} {b : β} :
    (LPlot.of (Plot.lift r) >>= f) la = (la2, .ok b) ↔ ∃ a, r = .ok a ∧ f a la = (la2, .ok b) := by
  rw [LPlot.bind_eq_ok]
  constructor
  · rintro ⟨la1, a, h1, h2⟩
    rw [LPlot.of_eq_ok] at h1
    have e : la1 = la := by
      have := congrArg Prod.fst h1.1
      cases la1; cases la; simp_all [Plot.lift]
    subst e
    exact ⟨a, (congrArg Prod.snd h1.1), h2⟩
  · rintro ⟨a, rfl, h⟩
    exact ⟨la, a, rfl, h⟩

theorem LPlot.labelled_add {t : String} (ht : shownLabel (some t) = true) {p : Plot K Unit} {s : Shape K} {la la' : LAx K}
    (hp : ∀ ax ax', p ax = (ax', .ok ()) → ax' = ax.draw [s]) (h : LPlot.labelled (some t) p la = (la', .ok ())) :
    la' = ⟨la.ax.draw [s], la.handles ++ [(t, s)]⟩ := by
  unfold LPlot.labelled at h
  split at h
  · cases h
  · next ax u hok =>
    obtain rfl := hp _ _ hok
    simp only [Ax.draw_shapes, List.getLast?_append, List.getLast?_singleton, Option.some_or, ht, if_true] at h
    exact (congrArg Prod.fst h).symm

end run

theorem drawLine_eq {color : String} {alpha : ℝ} {xs ys : List ℝ} (ax ax' : Ax ℝ) (h : drawLine color alpha xs ys ax = (ax', .ok ())) :
    ax' = ax.draw [.line color xs ys] := by
  unfold drawLine at h
  split at h
  · exact (congrArg Prod.fst h).symm
  · cases h

theorem drawPoints_eq {color : String} {xs ys : List ℝ} (ax ax' : Ax ℝ) (h : drawPoints color xs ys ax = (ax', .ok ())) :
    ax' = ax.draw [.points color xs ys] := by
  unfold drawPoints at h
  split at h
  · exact (congrArg Prod.fst h).symm
  · cases h

theorem Spec.VisibleName.shown {name : String} (h : VisibleName name) : shownLabel (some name) = true := by
  simp [shownLabel, h.1, h.2]

theorem Spec.VisibleName.append {name : String} (h : VisibleName name) (rest : String) : VisibleName (name ++ rest) := by
  obtain ⟨c, cs, hc⟩ : ∃ c cs, name.toList = c :: cs := by
    rcases e : name.toList with _ | ⟨c, cs⟩
    · exact absurd (String.toList_inj.1 (by simpa using e)) h.1
    · exact ⟨c, cs, rfl⟩
  have h2 := h.2
  refine ⟨?_, ?_⟩
  · intro e
    have := congrArg String.toList e
    simp [hc] at this
  · simp [hc] at h2 ⊢
    exact h2

theorem Spec.VisibleName.mu {name : String} (h : VisibleName name) : shownLabel (some (muLabel name)) = true := (h.append _).shown

theorem Spec.VisibleName.sigma {name : String} (h : VisibleName name) (k : Factor) : shownLabel (some (sigmaLabel name k)) = true := by
  unfold sigmaLabel
  exact (((h.append _).append _).append _).shown

/-! ### the labels of confidence lines -/

theorem offsetBy_eq_ok {f : ℝ} {means stds ys : List ℝ} (h : offsetBy f means stds = .ok ys) : OffsetOf f means stds ys := by
  unfold offsetBy at h
  split at h
  · next hl =>
    cases h
    refine ⟨by simp [hl], fun i m s hm hs => ?_⟩
    rw [List.getElem?_zipWith, hm, hs]
  · cases h

theorem sigmaLoopL_ok {name : String} (hn : VisibleName name) {color : String} {x means stds : List ℝ} : ∀ {ks : List Factor} {la la' : LAx ℝ},
    sigmaLoopL name color x means stds ks la = (la', .ok ()) →
    ∃ pairs : List (Shape ℝ × Shape ℝ), la'.ax = la.ax.draw (pairs.flatMap fun p => [p.1, p.2]) ∧
      List.Forall₂ (fun (k : Factor) p => LinesOf color x means stds k.value [p.1, p.2]) (ks.filter fun k => decide (k.value ≠ 0)) pairs ∧
      (∀ k ∈ ks, 0 ≤ k.value) ∧
      la'.handles = la.handles ++ List.zipWith (fun k p => (sigmaLabel name k, p.1)) (ks.filter fun k => decide (k.value ≠ 0)) pairs
  | [], la, la', h => by
    obtain rfl : la = la' := congrArg Prod.fst h
    exact ⟨[], by simp, .nil, by simp, by simp⟩
  | k :: ks, la, la', h => by
    unfold sigmaLoopL at h
    by_cases h0 : k.value = 0
    · rw [if_pos h0] at h
      obtain ⟨pairs, p1, p2, p4, p3⟩ := sigmaLoopL_ok hn h
      rw [List.filter_cons_of_neg (by simpa using h0)]
      exact ⟨pairs, p1, p2, by simpa [h0] using p4, p3⟩
    · rw [if_neg h0, LPlot.lift_bind_eq_ok] at h
      obtain ⟨lo, hlo, h⟩ := h
      rw [LPlot.bind_eq_ok] at h
      obtain ⟨la1, _, h1, h⟩ := h
      obtain rfl := LPlot.labelled_add (hn.sigma k) drawLine_eq h1
      rw [LPlot.lift_bind_eq_ok] at h
      obtain ⟨hi, hhi, h⟩ := h
      rw [LPlot.bind_eq_ok] at h
      obtain ⟨la2, _, h2, h⟩ := h
      rw [LPlot.of_eq_ok] at h2
      have e2 := drawLine_eq _ _ h2.1
      obtain ⟨pairs, p1, p2, p4, p3⟩ := sigmaLoopL_ok hn h
      rw [List.filter_cons_of_pos (by simpa using h0)]
      refine ⟨(.line color x lo, .line color x hi) :: pairs, ?_, .cons ⟨lo, hi, rfl, offsetBy_eq_ok hlo, offsetBy_eq_ok hhi⟩ p2, ?_, ?_⟩
      · rw [p1, e2]; simp
      · have hk : 0 ≤ k.value := by
          by_contra hneg
          have h3 := h2.1
          unfold drawLine at h3
          rw [if_neg] at h3
          · exact absurd (congrArg Prod.snd h3) (by simp [Plot.raise])
          · rintro ⟨ha, -⟩
            have : 1 / k.value < 0 := one_div_neg.2 (not_le.1 hneg)
            linarith
        simpa [hk] using p4
      · rw [p3, h2.2]; simp

theorem givenStds_of {stds variances : Option (List ℝ)} {s : List ℝ} (h : getStds stds variances = .ok s) : GivenStds stds variances s := by
  match stds, variances, h with
  | some _, none, h => cases h; exact .inl ⟨rfl, rfl⟩
  | none, some v, h => cases h; exact .inr ⟨rfl, v, rfl, List.forall₂_map_right_iff.2 (List.forall₂_same.2 fun _ _ => rfl)⟩

theorem roundEven_spec (x : ℝ) : Rounds x (roundEven x) := by
  have h1 := Int.floor_add_fract x
  have h2 := Int.fract_nonneg x
  have h3 := Int.fract_lt_one x
  unfold roundEven
  split_ifs with c1 c2 c3
  · have e : |x - (⌊x⌋ : ℝ)| = Int.fract x := by rw [abs_of_nonneg] <;> linarith
    exact ⟨by rw [e]; exact c1.le, by rw [e]; intro h; linarith⟩
  · have e : |x - ((⌊x⌋ + 1 : Int) : ℝ)| = 1 - Int.fract x := by push_cast; rw [abs_of_nonpos] <;> linarith
    exact ⟨by rw [e]; linarith, by rw [e]; intro h; linarith⟩
  · have e : |x - (⌊x⌋ : ℝ)| = Int.fract x := by rw [abs_of_nonneg] <;> linarith
    exact ⟨by rw [e]; linarith, fun _ => c3⟩
  · have e : |x - ((⌊x⌋ + 1 : Int) : ℝ)| = 1 - Int.fract x := by push_cast; rw [abs_of_nonpos] <;> linarith
    exact ⟨by rw [e]; linarith, fun _ => by omega⟩

theorem rounds_unique {x : ℝ} {h h' : Int} (a : Rounds x h) (b : Rounds x h') : h = h' := by
  obtain ⟨a1, a2⟩ := a
  obtain ⟨b1, b2⟩ := b
  rw [abs_le] at a1 b1
  have k1 : ((h - h' : Int) : ℝ) ≤ 1 := by push_cast; linarith
  have k2 : (-1 : ℝ) ≤ ((h - h' : Int) : ℝ) := by push_cast; linarith
  have k3 : h - h' ≤ 1 := by exact_mod_cast k1
  have k4 : -1 ≤ h - h' := by exact_mod_cast k2
  have key : ∀ {p q : Int}, p = q + 1 → x - p ≤ 1 / 2 → -(1 / 2) ≤ x - p → x - q ≤ 1 / 2 → -(1 / 2) ≤ x - q →
      |x - (p : ℝ)| = 1 / 2 ∧ |x - (q : ℝ)| = 1 / 2 := by
    intro p q e p1 p2 q1 q2
    have e' : (p : ℝ) = q + 1 := by exact_mod_cast e
    rw [e'] at p1 p2 ⊢
    rw [show x - (q : ℝ) = 1 / 2 by linarith, show x - ((q : ℝ) + 1) = -(1 / 2) by linarith]
    norm_num
  rcases lt_trichotomy h h' with c | c | c
  · obtain ⟨e1, e2⟩ := key (show h' = h + 1 by omega) b1.2 b1.1 a1.2 a1.1
    have := a2 e2
    have := b2 e1
    omega
  · exact c
  · obtain ⟨e1, e2⟩ := key (show h = h' + 1 by omega) a1.2 a1.1 b1.2 b1.1
    have := a2 e1
    have := b2 e2
    omega

theorem roundEven_nonneg {x : ℝ} (hx : 0 ≤ x) : 0 ≤ roundEven x := by
  have h1 := (roundEven_spec x).1
  rw [abs_le] at h1
  have : (-1 : ℝ) < roundEven x := by linarith [h1.2]
  have : (-1 : Int) < roundEven x := by exact_mod_cast this
  omega

theorem text_spec {k : Factor} (hk : 0 ≤ k.value) : FactorText k k.text := by
  cases k with
  | int n => rfl
  | float x =>
    have hx : 0 ≤ x := hk
    refine ⟨(roundEven (100 * x)).toNat, ?_, rfl⟩
    rw [Int.toNat_of_nonneg (roundEven_nonneg (by linarith))]
    exact roundEven_spec _

theorem lines_labels {name : String} (hn : VisibleName name) {x means : List ℝ} {stds variances : Option (List ℝ)} {color : String} {ks : List Factor} {la la' : LAx ℝ}
    (h : confidenceLinesL name x means stds variances color (.seq ks) la = (la', .ok ())) :
    ∃ (s : List ℝ) (sorted : List Factor) (pairs : List (Shape ℝ × Shape ℝ)), GivenStds stds variances s ∧ (∀ k ∈ sorted, 0 ≤ k.value) ∧
      sorted.Perm (ks.filter fun k => decide (k.value ≠ 0)) ∧ sorted.Pairwise (fun a b => a.value ≤ b.value) ∧
      List.Forall₂ (fun (k : Factor) p => LinesOf color x means s k.value [p.1, p.2]) sorted pairs ∧
      la'.ax.shapes = la.ax.shapes ++ (if 0 ∈ ks.map Factor.value then [.line color x means] else []) ++ pairs.flatMap (fun p => [p.1, p.2]) ∧
      la'.handles = la.handles ++ (if 0 ∈ ks.map Factor.value then [(name ++ "-$\\mu$", .line color x means)] else []) ++
        List.zipWith (fun k p => (sigmaLabel name k, p.1)) sorted pairs := by
  unfold confidenceLinesL at h
  rw [LPlot.lift_bind_eq_ok] at h
  obtain ⟨s, hs, h⟩ := h
  rw [LPlot.bind_eq_ok] at h
  obtain ⟨la1, _, h1, h2⟩ := h
  obtain ⟨so, hso⟩ : ∃ so, so = ks.mergeSort (fun a b => decide (a.value ≤ b.value)) := ⟨_, rfl⟩
  have hsorted : so.Pairwise (fun a b => a.value ≤ b.value) := by
    rw [hso]
    refine (List.pairwise_mergeSort (le := fun a b : Factor => decide (a.value ≤ b.value)) ?_ ?_ ks).imp fun h => of_decide_eq_true h
    · intro a b c h1 h2
      simp only [decide_eq_true_eq] at *
      exact h1.trans h2
    · intro a b
      simp only [Bool.or_eq_true, decide_eq_true_eq]
      exact le_total a.value b.value
  simp only [factorsRest] at h2
  rw [← hso] at h2
  obtain ⟨pairs, p1, p2, p4, p3⟩ := sigmaLoopL_ok hn h2
  refine ⟨s, so.filter fun k => decide (k.value ≠ 0), pairs, givenStds_of hs, fun k hk => p4 k (List.mem_filter.1 hk).1, ?_, hsorted.filter _, p2, ?_⟩
  · rw [hso]; exact (List.mergeSort_perm _ _).filter _
  · have hmu : la1 = ⟨la.ax.draw (if 0 ∈ ks.map Factor.value then [.line color x means] else []),
        la.handles ++ (if 0 ∈ ks.map Factor.value then [(name ++ "-$\\mu$", .line color x means)] else [])⟩ := by
      unfold muLineL factorsHaveZero at h1
      by_cases h0 : 0 ∈ ks.map Factor.value
      · simp only [h0, decide_true, if_true] at h1 ⊢
        exact LPlot.labelled_add hn.mu drawLine_eq h1
      · simp only [h0, decide_false, Bool.false_eq_true, if_false] at h1 ⊢
        have e : la = la1 := congrArg Prod.fst h1
        simp [← e]
    rw [p1, p3, hmu]
    simp

/-- **C120** `plot_1D_confidence_lines`: an entry for the means if 0 is among the factors, then for every other factor, in increasing order, an entry for the lower of its
two lines, with the name and the factor in the label. -/
theorem C120_lines {name : String} (hn : VisibleName name) {x means : List ℝ} {stds variances : Option (List ℝ)} {color : String} {ks : List Factor} {la la' : LAx ℝ}
    (h : confidenceLinesL name x means stds variances color (.seq ks) la = (la', .ok ())) :
    ∃ (s : List ℝ) (sorted : List Factor) (pairs : List (Shape ℝ × Shape ℝ)) (texts : List String), GivenStds stds variances s ∧
      sorted.Perm (ks.filter fun k => decide (k.value ≠ 0)) ∧ sorted.Pairwise (fun a b => a.value ≤ b.value) ∧
      List.Forall₂ (fun (k : Factor) p => LinesOf color x means s k.value [p.1, p.2]) sorted pairs ∧ List.Forall₂ FactorText sorted texts ∧
      Adds la la' ((if 0 ∈ ks.map Factor.value then [.line color x means] else []) ++ pairs.flatMap fun p => [p.1, p.2])
        ((if 0 ∈ ks.map Factor.value then [(s!"{name}-$\\mu$", .line color x means)] else []) ++
          List.zipWith (fun t p => (s!"{name}-$\\mu\\pm${t}$\\sigma$", p.1)) texts pairs) := by
  obtain ⟨s, so, pairs, h1, h2, h3, h4, h5, h6, h7⟩ := lines_labels hn h
  refine ⟨s, so, pairs, so.map Factor.text, h1, h3, h4, h5,
    List.forall₂_map_right_iff.2 (List.forall₂_same.2 fun k hk => text_spec (h2 k hk)), by rw [h6, List.append_assoc], ?_⟩
  rw [h7, List.append_assoc, List.zipWith_map_left]
  rfl

/-- for the factors 1 and 2 -/
theorem lines_one_two {name : String} (hn : VisibleName name) {x means s : List ℝ} {color : String} {la la' : LAx ℝ}
    (h : confidenceLinesL name x means (some s) none color (.seq [.int 1, .int 2]) la = (la', .ok ())) :
    ∃ a b c d, LinesOf color x means s 1 [a, b] ∧ LinesOf color x means s 2 [c, d] ∧ la'.ax.shapes = la.ax.shapes ++ [a, b, c, d] ∧
      la'.handles = la.handles ++ [(name ++ "-$\\mu\\pm$1$\\sigma$", a), (name ++ "-$\\mu\\pm$2$\\sigma$", c)] := by
  obtain ⟨t, so, pairs, hs, -, hperm, hsort, h2, h3, h4⟩ := lines_labels hn h
  obtain rfl : s = t := by
    rcases hs with ⟨e, -⟩ | ⟨e, -⟩
    · exact Option.some.inj e
    · cases e
  have hso : so = [.int 1, .int 2] := by
    rw [show [Factor.int 1, Factor.int 2].filter (fun k => decide (k.value ≠ 0)) = [.int 1, .int 2] by simp [Factor.value]] at hperm
    rcases List.perm_pair.1 hperm with e | e
    · exact e
    · rw [e] at hsort
      simp [Factor.value] at hsort
  subst hso
  cases h2 with
  | cons ha h2 =>
    cases h2 with
    | cons hb h2 =>
      cases h2
      rename_i p q
      refine ⟨p.1, p.2, q.1, q.2, by simpa [Factor.value] using ha, by simpa [Factor.value] using hb, ?_, ?_⟩
      · rw [h3]; simp [Factor.value]
      · rw [h4]
        simp only [Factor.value, List.map_cons, List.map_nil, List.zipWith_cons_cons, List.zipWith_nil_left]
        rw [if_neg (by simp), List.append_nil]
        congr 2
        · simp only [sigmaLabel, Factor.text, String.append_assoc]; rfl
        · congr 2
          simp only [sigmaLabel, Factor.text, String.append_assoc]; rfl

theorem bandLoop_eq {color : String} {steps : Nat} {m : ℝ} {x means stds : List ℝ} : ∀ {k i : Nat} {ax ax' : Ax ℝ},
    bandLoop color steps m x means stds i k ax = (ax', .ok ()) → ∃ bands, ax' = ax.draw bands ∧ bands.length = k
  | 0, i, ax, ax', h => ⟨[], by rw [Ax.draw_nil]; exact (congrArg Prod.fst h).symm, rfl⟩
  | k + 1, i, ax, ax', h => by
    unfold bandLoop at h
    dsimp only at h
    rw [Plot.lift_bind_eq_ok] at h
    obtain ⟨lo, -, h⟩ := h
    rw [Plot.lift_bind_eq_ok] at h
    obtain ⟨hi, -, h⟩ := h
    rw [Plot.bind_eq_ok] at h
    obtain ⟨ax1, _, h1, h⟩ := h
    unfold drawBand at h1
    split at h1
    · obtain ⟨bands, e, hl⟩ := bandLoop_eq h
      have e1 : ax.draw [.band color x lo hi] = ax1 := congrArg Prod.fst h1
      exact ⟨.band color x lo hi :: bands, by rw [e, ← e1]; simp, by simp [hl]⟩
    · cases h1

theorem gradients_eq {x means : List ℝ} {stds variances : Option (List ℝ)} {color : String} {m : ℝ} {ax ax' : Ax ℝ}
    (h : confidenceGradients x means stds variances color 100 m ax = (ax', .ok ())) : ∃ bands, ax' = ax.draw bands ∧ bands.length = 100 := by
  unfold confidenceGradients at h
  rw [Plot.lift_bind_eq_ok] at h
  obtain ⟨s, -, h⟩ := h
  exact bandLoop_eq h

theorem axis_shapes {K : Type} {hps : List (Hp K)} {b : Bool} {yl : String} {ax ax' : Ax K} {r : Py Unit} (h : checkAndSetAxis hps b yl ax = (ax', r)) :
    ax'.shapes = ax.shapes := by
  have hx : ∀ (a : Ax K) hp, (a.boundX b hp).shapes = a.shapes := fun a hp => by unfold Ax.boundX; split <;> rfl
  have hy : ∀ (a : Ax K) hp, (a.boundY b hp).shapes = a.shapes := fun a hp => by unfold Ax.boundY; split <;> rfl
  have e := congrArg Prod.fst h
  unfold checkAndSetAxis at e
  simp only at e
  rw [← e]
  split
  · split
    · rfl
    · split
      · rfl
      · rw [hx]
  · split
    · rfl
    · rw [hy, hx]
  · rfl

/-! ### the methods -/

/-- **C120** `plot_function` over one hyperparameter: one entry, the curve with the name of the function; otherwise none. A callable without a name cannot be plotted over one
hyperparameter. -/
theorem C120_function {name : Option String} {f : List (String × Val ℝ) → Py ℝ} {cs : ConfigSpace ℝ} {n : Nat} {color : String} {la la' : LAx ℝ}
    (h : plotFunctionL name f cs n color la = (la', .ok ())) :
    ((varying cs).length = 1 → ∃ l xs ys, name = some l ∧
      (VisibleName l → Adds la la' [.line color xs ys] [(l, .line color xs ys)])) ∧
    ((varying cs).length ≠ 1 → la'.handles = la.handles) := by
  have hpar : (varying cs).length = (parametersOf cs).length := by
    unfold varying parametersOf
    congr 1
    refine List.filter_congr fun hp _ => ?_
    unfold Hp.constant?
    cases hp.kind <;> rfl
  rw [hpar]
  unfold plotFunctionL at h
  split at h
  · cases h
  · split at h
    · cases h
    · rw [LPlot.lift_bind_eq_ok] at h
      obtain ⟨ranges, -, h⟩ := h
      rw [LPlot.bind_eq_ok] at h
      obtain ⟨la1, _, h1, h⟩ := h
      rw [LPlot.of_eq_ok] at h1
      have hs := axis_shapes h1.1
      generalize parametersOf cs = hps at h
      match hps, h with
      | [], h => exact ⟨by simp, fun _ => by rw [← h1.2]; exact (LPlot.of_eq_ok.1 h).2⟩
      | [p], h =>
        refine ⟨fun _ => ?_, by simp⟩
        simp only [plotValuesL] at h
        rw [LPlot.lift_bind_eq_ok] at h
        obtain ⟨x, -, h⟩ := h
        rw [LPlot.lift_bind_eq_ok] at h
        obtain ⟨y, -, h⟩ := h
        cases name with
        | none => cases h
        | some l =>
          refine ⟨l, x, y, rfl, fun hl => ?_⟩
          obtain rfl := LPlot.labelled_add hl.shown drawLine_eq h
          exact ⟨by simp [hs], by simp [h1.2]⟩
      | [_, _], h => exact ⟨by simp, fun _ => by rw [← h1.2]; exact (LPlot.of_eq_ok.1 h).2⟩
      | _ :: _ :: _ :: _, h => exact ⟨by simp, fun _ => by rw [← h1.2]; exact (LPlot.of_eq_ok.1 h).2⟩

/-- **C120** `plot_values` of a curve over one hyperparameter: one entry, the line with the name of the curve; otherwise none. -/
theorem C120_values {name color : String} (hn : VisibleName name) {c : IceCurve ℝ} {la la' : LAx ℝ} (h : curveValuesL name color c la = (la', .ok ())) :
    (c.selected.length = 1 → ∃ xs, Adds la la' [.line color xs c.y] [(name, .line color xs c.y)]) ∧
    (c.selected.length ≠ 1 → la'.handles = la.handles) := by
  unfold curveValuesL at h
  rw [LPlot.bind_eq_ok] at h
  obtain ⟨la1, _, h1, h⟩ := h
  rw [LPlot.of_eq_ok] at h1
  have hs := axis_shapes h1.1
  rw [LPlot.lift_bind_eq_ok] at h
  obtain ⟨idx, -, h⟩ := h
  rw [LPlot.lift_bind_eq_ok] at h
  obtain ⟨rows, -, h⟩ := h
  generalize c.selected = hps at h
  match hps, h with
  | [], h => exact ⟨by simp, fun _ => by rw [← h1.2]; exact (LPlot.of_eq_ok.1 h).2⟩
  | [p], h =>
    refine ⟨fun _ => ?_, by simp⟩
    simp only [drawValuesL] at h
    rw [LPlot.lift_bind_eq_ok] at h
    obtain ⟨i, -, h⟩ := h
    rw [LPlot.lift_bind_eq_ok] at h
    obtain ⟨x, -, h⟩ := h
    obtain rfl := LPlot.labelled_add hn.shown drawLine_eq h
    exact ⟨x, by simp [hs], by simp [h1.2]⟩
  | [_, _], h => exact ⟨by simp, fun _ => by rw [← h1.2]; exact (LPlot.of_eq_ok.1 h).2⟩
  | _ :: _ :: _ :: _, h => exact ⟨by simp, fun _ => by rw [← h1.2]; exact (LPlot.of_eq_ok.1 h).2⟩

theorem confidence_adds {name color gradient : String} (hn : VisibleName name) {m : ℝ} {x y s : List ℝ} {la la' : LAx ℝ}
    (h : (do
      LPlot.of (confidenceGradients x y (some s) none gradient 100 m)
      confidenceLinesL name x y (some s) none color (.seq [.int 1, .int 2]) : LPlot ℝ Unit) la = (la', .ok ())) : AddsConfidence name color x y s la la' := by
  rw [LPlot.bind_eq_ok] at h
  obtain ⟨la1, _, h1, h⟩ := h
  rw [LPlot.of_eq_ok] at h1
  obtain ⟨bands, e, hb⟩ := gradients_eq h1.1
  obtain ⟨a, b, c, d, h2, h3, h4, h5⟩ := lines_one_two hn h
  exact ⟨bands, a, b, c, d, hb, h2, h3, by rw [h4, e]; simp, by rw [h5, h1.2]⟩

/-- **C120** `plot_confidences` of a curve over one hyperparameter: two entries, the name of the curve with one and two standard deviations, for the lower lines; otherwise
none. -/
theorem C120_confidences {name lineColor gradientColor : String} (hn : VisibleName name) {m : ℝ} {c : IceCurve ℝ} {la la' : LAx ℝ}
    (h : curveConfidencesL name lineColor gradientColor m c la = (la', .ok ())) :
    (c.selected.length = 1 → ∃ xs, AddsConfidence name lineColor xs c.y (c.v.map Real.sqrt) la la') ∧
    (c.selected.length ≠ 1 → la'.handles = la.handles) := by
  unfold curveConfidencesL at h
  rw [LPlot.bind_eq_ok] at h
  obtain ⟨la1, _, h1, h⟩ := h
  rw [LPlot.of_eq_ok] at h1
  have hs := axis_shapes h1.1
  rw [LPlot.lift_bind_eq_ok] at h
  obtain ⟨idx, -, h⟩ := h
  rw [LPlot.lift_bind_eq_ok] at h
  obtain ⟨rows, -, h⟩ := h
  generalize c.selected = hps at h
  match hps, h with
  | [], h => exact ⟨by simp, fun _ => by rw [← h1.2]; exact (LPlot.of_eq_ok.1 h).2⟩
  | [p], h =>
    refine ⟨fun _ => ?_, by simp⟩
    simp only [drawConfidencesL] at h
    rw [LPlot.lift_bind_eq_ok] at h
    obtain ⟨i, -, h⟩ := h
    rw [LPlot.lift_bind_eq_ok] at h
    obtain ⟨x, -, h⟩ := h
    obtain ⟨bands, a, b, c', d, k1, k2, k3, k4, k5⟩ := confidence_adds hn h
    exact ⟨x, bands, a, b, c', d, k1, k2, k3, by rw [k4, hs], by rw [k5, h1.2]⟩
  | [_, _], h => exact ⟨by simp, fun _ => by rw [← h1.2]; exact (LPlot.of_eq_ok.1 h).2⟩
  | _ :: _ :: _ :: _, h => exact ⟨by simp, fun _ => by rw [← h1.2]; exact (LPlot.of_eq_ok.1 h).2⟩

/-- **C120** `ICE.plot`: a single entry for all curves, "ICE", with their colour. -/
theorem C120_ice {color : String} {alpha : ℝ} {s s' : IceState ℝ} {la la' : LAx ℝ} (h : icePlotL color alpha s la = (s', la', .ok ())) :
    la'.handles = la.handles ++ [("ICE", .line color [] [])] := by
  unfold icePlotL at h
  split at h
  · cases h
  · next la1 _ h1 =>
    rw [LPlot.of_eq_ok] at h1
    split at h
    · split at h
      · cases h
      · split at h
        · cases h
        · next s2 y _ =>
          simp only [Prod.mk.injEq] at h
          have h2 := LPlot.bind_eq_ok.1 (Prod.ext (y := (la', Except.ok ())) h.2.1 h.2.2)
          obtain ⟨la2, _, h3, h4⟩ := h2
          rw [LPlot.of_eq_ok] at h3
          obtain rfl := LPlot.labelled_add (VisibleName.shown ⟨by decide, by decide⟩) drawLine_eq h4
          dsimp only
          rw [h3.2, h1.2]
    · cases h

/-- **C120** `plot_means` of a surrogate over one hyperparameter: one entry, the predictions with the name of the class; otherwise none. -/
theorem C120_means {cls color : String} (hn : VisibleName cls) {predict : Predict ℝ} {cs : ConfigSpace ℝ} {n : Nat} {la la' : LAx ℝ}
    (h : surrogateMeansL cls color predict cs n la = (la', .ok ())) :
    (cs.length = 1 → ∃ xs ys, Adds la la' [.line color xs ys] [(cls ++ "-$\\mu$", .line color xs ys)]) ∧ (cs.length ≠ 1 → la'.handles = la.handles) := by
  unfold surrogateMeansL surrogatePlotL at h
  split at h
  · rw [LPlot.bind_eq_ok] at h
    obtain ⟨la1, _, h1, h⟩ := h
    rw [LPlot.of_eq_ok] at h1
    have hs := axis_shapes h1.1
    rw [LPlot.lift_bind_eq_ok] at h
    obtain ⟨ranges, -, h⟩ := h
    match cs, h with
    | [], h => exact ⟨by simp, fun _ => by rw [← h1.2]; exact (LPlot.of_eq_ok.1 h).2⟩
    | [p], h =>
      refine ⟨fun _ => ?_, by simp⟩
      simp only [drawSurrogateL] at h
      rw [LPlot.lift_bind_eq_ok] at h
      obtain ⟨pr, -, h⟩ := h
      rw [LPlot.lift_bind_eq_ok] at h
      obtain ⟨x, -, h⟩ := h
      obtain rfl := LPlot.labelled_add hn.mu drawLine_eq h
      exact ⟨x, pr.1, by simp [hs], by simp [h1.2, muLabel]⟩
    | [_, _], h => exact ⟨by simp, fun _ => by rw [← h1.2]; exact (LPlot.of_eq_ok.1 h).2⟩
    | _ :: _ :: _ :: _, h => exact ⟨by simp, fun _ => by rw [← h1.2]; exact (LPlot.of_eq_ok.1 h).2⟩
  · cases h

/-- **C120** `plot_confidences` of a surrogate over one hyperparameter: two entries, as for a curve; otherwise none. -/
theorem C120_surrogate_confidences {cls lineColor gradientColor : String} (hn : VisibleName cls) {predict : Predict ℝ} {cs : ConfigSpace ℝ} {n : Nat} {la la' : LAx ℝ}
    (h : surrogateConfidencesL cls lineColor gradientColor predict cs n la = (la', .ok ())) :
    (cs.length = 1 → ∃ xs y s, predict ((linspace 0 1 n).map fun t => [t]) = .ok (y, s) ∧ AddsConfidence cls lineColor xs y s la la') ∧
    (cs.length ≠ 1 → la'.handles = la.handles) := by
  unfold surrogateConfidencesL surrogatePlotL at h
  split at h
  · rw [LPlot.bind_eq_ok] at h
    obtain ⟨la1, _, h1, h⟩ := h
    rw [LPlot.of_eq_ok] at h1
    have hs := axis_shapes h1.1
    rw [LPlot.lift_bind_eq_ok] at h
    obtain ⟨ranges, -, h⟩ := h
    match cs, h with
    | [], h => exact ⟨by simp, fun _ => by rw [← h1.2]; exact (LPlot.of_eq_ok.1 h).2⟩
    | [p], h =>
      refine ⟨fun _ => ?_, by simp⟩
      simp only [drawSurrogateL] at h
      rw [LPlot.lift_bind_eq_ok] at h
      obtain ⟨pr, hpr, h⟩ := h
      rw [LPlot.lift_bind_eq_ok] at h
      obtain ⟨x, -, h⟩ := h
      obtain ⟨bands, a, b, c', d, k1, k2, k3, k4, k5⟩ := confidence_adds hn h
      exact ⟨x, pr.1, pr.2, hpr, bands, a, b, c', d, k1, k2, k3, by rw [k4, hs], by rw [k5, h1.2]⟩
    | [_, _], h => exact ⟨by simp, fun _ => by rw [← h1.2]; exact (LPlot.of_eq_ok.1 h).2⟩
    | _ :: _ :: _ :: _, h => exact ⟨by simp, fun _ => by rw [← h1.2]; exact (LPlot.of_eq_ok.1 h).2⟩
  · cases h

/-- **C120** `plot` of a sampler: one entry, for the points, with the given label; without one with their number and the name of the class. -/
theorem C120_sampler {X : Type} {cls : String} {label : Option String} (hl : ∀ l, label = some l → VisibleName l) {argsort : List ℝ → List Nat} {color : String}
    {cs : ConfigSpace ℝ} {sel : Selection ℝ} {s : SamplerState (Config ℝ) ℝ X} {la la' : LAx ℝ} (h : samplerPlotL cls label argsort color cs sel s la = (la', .ok ())) :
    ∃ text xs ys, SamplerText cls s.configs.length label text ∧ Adds la la' [.points color xs ys] [(text, .points color xs ys)] := by
  have ht : SamplerText cls s.configs.length label (samplerLabel cls s.configs.length label) := by
    cases label with
    | none => exact .inr ⟨rfl, rfl⟩
    | some l => exact .inl rfl
  have hv : shownLabel (some (samplerLabel cls s.configs.length label)) = true := by
    cases label with
    | none =>
      refine VisibleName.shown ?_
      unfold samplerLabel
      exact ((((show VisibleName "Sampled points (" from ⟨by decide, by decide⟩).append _).append _).append _).append _
    | some l => exact (hl l rfl).shown
  unfold samplerPlotL at h
  rw [LPlot.lift_bind_eq_ok] at h
  obtain ⟨hps, -, h⟩ := h
  rw [LPlot.bind_eq_ok] at h
  obtain ⟨la1, _, h1, h⟩ := h
  rw [LPlot.of_eq_ok] at h1
  have hs := axis_shapes h1.1
  match hps, h with
  | [], h => cases h
  | [p], h =>
    simp only [drawSamplesL] at h
    rw [LPlot.lift_bind_eq_ok] at h
    obtain ⟨x, -, h⟩ := h
    rw [LPlot.lift_bind_eq_ok] at h
    obtain ⟨xo, -, h⟩ := h
    rw [LPlot.lift_bind_eq_ok] at h
    obtain ⟨yo, -, h⟩ := h
    obtain rfl := LPlot.labelled_add hv drawPoints_eq h
    exact ⟨_, xo, yo, ht, by simp [hs], by simp [h1.2]⟩
  | [_, _], h =>
    simp only [drawSamplesL] at h
    rw [LPlot.lift_bind_eq_ok] at h
    obtain ⟨x, -, h⟩ := h
    rw [LPlot.lift_bind_eq_ok] at h
    obtain ⟨y, -, h⟩ := h
    split at h
    · cases h
    · obtain rfl := LPlot.labelled_add hv drawPoints_eq h
      exact ⟨_, x, y, ht, by simp [hs], by simp [h1.2]⟩
  | _ :: _ :: _ :: _, h => cases h

/-- **C120** `plot` of an acquisition function: an entry for its curve with the name of the class, and one for the optimum if it is shown. -/
theorem C120_acquisition {S : Type} {cls : String} (hn : VisibleName cls) {text : Picked (Config ℝ) → String} {argsort : List ℝ → List Nat} {colorAcq colorOpt : String}
    {showOptimum : Bool} {cs : ConfigSpace ℝ} {d : Drawer (Config ℝ) S} {n : Int} {value : Config ℝ → ℝ} {sel : Selection ℝ} {rng rng' : S} {la la' : LAx ℝ}
    (h : acqPlotL cls text argsort colorAcq colorOpt showOptimum cs d n value sel rng la = (rng', la', .ok ())) :
    ∃ xs ys band best x, (showOptimum = true → getOptimum (cs.map Hp.name) d n value (d.sampleConfiguration rng n).2 = (rng', .ok (.config best))) ∧ Adds la la' ([band, .line colorAcq xs ys] ++ if showOptimum then [.points colorOpt [x] [value best]] else [])
      ([(cls, .line colorAcq xs ys)] ++ if showOptimum then [(s!"Optimum ({text (.config best)})", .points colorOpt [x] [value best])] else []) := by
  unfold acqPlotL at h
  split at h
  · cases h
  · next hps _ =>
    split at h
    · cases h
    · next la1 _ h1 =>
      rw [LPlot.of_eq_ok] at h1
      have hs := axis_shapes h1.1
      dsimp only at h
      split at h
      · cases h
      · next configs _ =>
        split at h
        · cases h
        · next rows _ =>
          split at h
          · cases h
          · next rng2 opt hopt =>
            rw [Prod.mk.injEq] at h
            have hr := h.1
            replace h := h.2
            match hps, h with
            | [], h => cases h
            | [p], h =>
              simp only [drawAcquisitionL] at h
              replace h : _ = (la', Except.ok ()) := h
              rw [Prod.mk.eta, LPlot.lift_bind_eq_ok] at h
              obtain ⟨x, -, h⟩ := h
              rw [LPlot.lift_bind_eq_ok] at h
              obtain ⟨xo, -, h⟩ := h
              rw [LPlot.lift_bind_eq_ok] at h
              obtain ⟨yo, -, h⟩ := h
              rw [LPlot.bind_eq_ok] at h
              obtain ⟨la2, _, h2, h⟩ := h
              rw [LPlot.of_eq_ok] at h2
              have hb : la2.ax = la1.ax.draw [.band colorAcq xo yo (yo.map fun _ => 0)] := by
                have := h2.1
                unfold drawBand at this
                split at this
                · exact (congrArg Prod.fst this).symm
                · exact absurd (congrArg Prod.snd this) (by simp [Plot.raise])
              rw [LPlot.bind_eq_ok] at h
              obtain ⟨la3, _, h3, h⟩ := h
              obtain rfl := LPlot.labelled_add hn.shown drawLine_eq h3
              cases showOptimum with
              | false =>
                have e : (⟨la2.ax.draw [.line colorAcq xo yo], la2.handles ++ [(cls, .line colorAcq xo yo)]⟩ : LAx ℝ) = la' := congrArg Prod.fst h
                refine ⟨xo, yo, .band colorAcq xo yo (yo.map fun _ => 0), ⟨[], []⟩, 0, by simp, ?_⟩
                rw [← e]
                exact ⟨by simp [hb, hs], by simp [h2.2, h1.2]⟩
              | true =>
                simp only [if_true, drawOptimumL] at h
                rw [LPlot.lift_bind_eq_ok] at h
                obtain ⟨v, -, h⟩ := h
                rw [LPlot.lift_bind_eq_ok] at h
                obtain ⟨w, hw, h⟩ := h
                have ev : VisibleName ("Optimum (" ++ text opt ++ ")") :=
                  ((show VisibleName "Optimum (" from ⟨by decide, by decide⟩).append _).append _
                obtain rfl := LPlot.labelled_add ev.shown drawPoints_eq h
                cases opt with
                | name _ => cases hw
                | config best =>
                  cases hw
                  refine ⟨xo, yo, .band colorAcq xo yo (yo.map fun _ => 0), best, v, fun _ => by rw [← hr, ← hopt]; simp, ?_⟩
                  exact ⟨by simp [hb, hs], by simp [h2.2, h1.2, String.append_assoc, toString]⟩
            | [_, _], h =>
              simp only [drawAcquisitionL, drawAcquisition, LPlot.of] at h
              have := congrArg Prod.snd h
              simp only [Plot.bind_apply, Plot.lift_apply] at this
              split at this <;> cases this
            | _ :: _ :: _ :: _, h => cases h

/-! ### figures -/

theorem pdpCurve_selected {s : PdpState ℝ} {s' : PdpState ℝ} {c : IceCurve ℝ} (h : pdpCurve s = (s', .ok c)) : c.selected = s.cfg.selected ∧ s'.cfg = s.cfg := by
  refine ⟨?_, by have := pdpCurve_cfg s; rw [h] at this; exact this⟩
  unfold pdpCurve at h
  split at h
  · cases h
  · split at h
    · cases h
    · split at h
      · cases h
      · cases h; rfl

theorem showsConfidence_split {lc gc : String} {m : ℝ} {xs y s : List ℝ} {shapes : List (Shape ℝ)} (h : ShowsConfidence lc gc m xs y s shapes) :
    ∃ bands a b c d, shapes = bands ++ [a, b, c, d] ∧ bands.length = 100 ∧ LinesOf lc xs y s 1 [a, b] ∧ LinesOf lc xs y s 2 [c, d] := by
  obtain ⟨fs, bands, one, two, h1, h2, h3, -, -, -, h4, h5⟩ := h
  obtain ⟨lo1, hi1, rfl, o1⟩ := h4
  obtain ⟨lo2, hi2, rfl, o2⟩ := h5
  exact ⟨bands, _, _, _, _, by rw [h1]; simp, by rw [← h2.length_eq, h3], ⟨lo1, hi1, rfl, o1⟩, ⟨lo2, hi2, rfl, o2⟩⟩

theorem suffix_eq {α : Type} {p p' b b' t t' : List α} {x x' : α} (h : p ++ [x] ++ (b ++ t) = p' ++ [x'] ++ (b' ++ t')) (hb : b.length = b'.length)
    (ht : t.length = t'.length) : x = x' ∧ t = t' := by
  obtain ⟨h1, h2⟩ := List.append_inj' h (by simp [hb, ht])
  exact ⟨by simpa using (List.append_inj' h1 rfl).2, (List.append_inj' h2 ht).2⟩

/-- **C120** `plot_full_pdp` for a new PDP of one hyperparameter: the legend lists the ICE curves, the PDP, and its lower lines of one and of two standard deviations, in this
order. -/
theorem C120_full_pdp {s : PdpState ℝ} (hs : PdpFresh s) (hi : s.ice = none) {mu sd : List ℝ → ℝ} (hc : Plottable s.cfg mu sd) {hp : Hp ℝ}
    (hsel : s.cfg.selected = [hp]) {l u : ℝ} {g : Bool} (hk : hp.kind = .float l u g ∨ hp.kind = .integer l u g) {f : Nat}
    (hf : IsFeature s.cfg.space hp f) :
    ∃ s' la one one' two two', fullPdpL s = (s', la, .ok ()) ∧
      LinesOf "black" (naturalGrid l u g s.cfg.perAxis) (pdpMeans s.cfg.samples mu f s.cfg.perAxis) (pdpStds s.cfg.samples sd f s.cfg.perAxis) 1 [one, one'] ∧
      LinesOf "black" (naturalGrid l u g s.cfg.perAxis) (pdpMeans s.cfg.samples mu f s.cfg.perAxis) (pdpStds s.cfg.samples sd f s.cfg.perAxis) 2 [two, two'] ∧
      la.handles = [("ICE", .line "red" [] []),
        ("PDP", .line "black" (naturalGrid l u g s.cfg.perAxis) (pdpMeans s.cfg.samples mu f s.cfg.perAxis)),
        ("PDP-$\\mu\\pm$1$\\sigma$", one), ("PDP-$\\mu\\pm$2$\\sigma$", two)] := by
  obtain ⟨s', ax, shapes, hfull, hax, hsh⟩ := C93_one hs hi hc hsel hk hf
  rw [fullPdp_erases] at hfull
  rcases hL : fullPdpL s with ⟨s1, la, r⟩
  rw [hL] at hfull
  dsimp only at hfull
  simp only [Prod.mk.injEq] at hfull
  obtain ⟨rfl, hax', rfl⟩ := hfull
  obtain ⟨bands, a, b, c, d, e1, e2, e3, e4⟩ := showsConfidence_split hsh
  refine ⟨s1, la, a, b, c, d, rfl, e3, e4, ?_⟩
  unfold fullPdpL at hL
  split at hL
  · cases hL
  · next i _ =>
    split at hL
    · cases hL
    · next i1 la1 _ hice =>
      split at hL
      · cases hL
      · next s2 la2 _ hval =>
        have hh1 := C120_ice hice
        have hpdp : VisibleName "PDP" := ⟨by decide, by decide⟩
        unfold pdpPlotValuesL at hval
        split at hval
        · cases hval
        · next s3 c1 hc1 =>
          simp only [Prod.mk.injEq] at hval
          obtain ⟨rfl, hv1, hv2⟩ := hval
          obtain ⟨hsel1, hcfg1⟩ := pdpCurve_selected hc1
          have hv := (C120_values hpdp (Prod.ext (y := (la2, Except.ok ())) hv1 hv2)).1
            (by rw [hsel1]; exact congrArg List.length hsel)
          unfold pdpPlotConfidencesL at hL
          split at hL
          · cases hL
          · next s4 c2 hc2 =>
            simp only [Prod.mk.injEq] at hL
            obtain ⟨rfl, hw1, hw2⟩ := hL
            obtain ⟨hsel2, -⟩ := pdpCurve_selected hc2
            have hw := (C120_confidences hpdp (Prod.ext (y := (la, Except.ok ())) hw1 hw2)).1
              (by rw [hsel2, hcfg1]; exact congrArg List.length hsel)
            obtain ⟨xs, k1, k2⟩ := hv
            obtain ⟨xs', bands', a', b', c', d', k3, -, -, k4, k5⟩ := hw
            rw [k1, hax', show ax.shapes = _ from congrArg Ax.shapes hax, e1] at k4
            obtain ⟨m2, m3⟩ := suffix_eq k4 (by rw [e2, k3]) rfl
            simp only [List.cons.injEq, and_true] at m3
            obtain ⟨rfl, rfl, rfl, rfl⟩ := m3
            rw [k5, k2, hh1, ← m2]
            rfl

theorem label_ne (n : Nat) (a b : String) : s!"Optimum ({a})" ≠ s!"Sampled points ({n}, {b})" := by
  intro e
  have h1 : (("Optimum (" ++ a) ++ ")").toList = (((("Sampled points (" ++ toString n) ++ ", ") ++ b) ++ ")").toList := congrArg String.toList e
  simp only [String.toList_append] at h1
  have h2 := congrArg List.head? h1
  simp at h2

section bayesian
variable {X S : Type} {argsort : List ℝ → List Nat} (hsort : Argsort argsort) {hp : Hp ℝ} (hname : hp.name = "x1") {l u : ℝ} {g : Bool}
  (h : ValidNumerical hp l u g) {predict : Predict ℝ} {mu sd : List ℝ → ℝ} (hp' : RowWise 1 predict mu sd) (hsd : ∀ r, 0 ≤ sd r)
  {s : SamplerState (Config ℝ) ℝ X} (hlen : s.configs.length = s.ys.length) {xs : List ℝ} (hxs : ReadsAs "x1" s.configs xs)
  (d : Drawer (Config ℝ) S) {n : Int} (hn : 2 ≤ n) (value : Config ℝ → ℝ)
  (hnames : ∀ r k, ∀ c ∈ (d.draw r k).1, c.values.map Prod.fst = ["x1"]) (hnum : ∀ r k, ∃ xs, ReadsAs "x1" (d.draw r k).1 xs) (rng : S)
  {names : FigureNames} (h1 : VisibleName names.surrogate) (h3 : VisibleName names.acquisition)
include hsort hname h hp' hsd hlen hxs hn hnames hnum h1 h3

/-- **C120** `plot_full_bayesian` for a single hyperparameter called `x1`: the first axis has entries for the means, the confidence lines and the evaluated points, the second
for the acquisition function and its optimum - but the legend lists those of the second only. -/
theorem C120_full_bayesian_counterexample : ∃ rng' laF laA shown mean one two points xa ya best x rng2,
    fullBayesianL names argsort predict [hp] s d n value rng = (rng', laF, laA, .ok shown) ∧
    laF.handles = [(names.surrogate ++ "-$\\mu$", mean), (names.surrogate ++ "-$\\mu\\pm$1$\\sigma$", one),
      (names.surrogate ++ "-$\\mu\\pm$2$\\sigma$", two), (s!"Sampled points ({s.configs.length}, {names.sampler})", points)] ∧
    (∀ e ∈ laF.handles, e.2 ∈ laF.ax.shapes) ∧
    shown = [(names.acquisition, .line "darkgreen" xa ya), (s!"Optimum ({names.optimum (.config best)})", .points "red" [x] [value best])] ∧
    (∀ e ∈ shown, e.2 ∈ laA.ax.shapes) ∧
    getOptimum ["x1"] d n value (d.sampleConfiguration rng n).2 = (rng2, .ok (.config best)) ∧
    ∀ e ∈ laF.handles, e ∉ shown := by
  obtain ⟨rng', axF, axA, -, -, -, -, -, -, -, -, hfull, -⟩ := C96_one_partial hsort hname h hp' hsd hlen hxs d hn value hnames hnum rng
  rw [fullBayesian_erases names] at hfull
  rcases hL : fullBayesianL names argsort predict [hp] s d n value rng with ⟨rng1, laF, laA, r⟩
  rw [hL] at hfull
  simp only [Prod.mk.injEq] at hfull
  obtain ⟨rfl, -, -, hr⟩ := hfull
  cases r with
  | error e => cases hr
  | ok shown =>
  unfold fullBayesianL at hL
  split at hL
  · cases hL
  · next laF' _ hF =>
    split at hL
    · cases hL
    · next rngA laA' _ hA =>
      split at hL
      · cases hL
      · split at hL
        · cases hL
        · next opt _ _ laA2 _ hm =>
          simp only [Prod.mk.injEq, Except.ok.injEq] at hL
          obtain ⟨rfl, rfl, rfl, rfl⟩ := hL
          rw [LPlot.bind_eq_ok] at hF
          obtain ⟨la1, _, hF1, hF⟩ := hF
          rw [LPlot.bind_eq_ok] at hF
          obtain ⟨la2, _, hF2, hF3⟩ := hF
          obtain ⟨xm, ym, a1, a2⟩ := (C120_means h1 hF1).1 rfl
          obtain ⟨xc, yc, sc, -, bands, a, b, c, e, -, ha, hc, b1, b2⟩ := (C120_surrogate_confidences h1 hF2).1 rfl
          obtain ⟨text, xp, yp, ht, c1, c2⟩ := C120_sampler (by simp) hF3
          obtain ⟨xa, ya, band, best, x, hbest, d1, d2⟩ := C120_acquisition h3 hA
          rw [LPlot.lift_bind_eq_ok] at hm
          obtain ⟨w, -, hm⟩ := hm
          rw [LPlot.of_eq_ok] at hm
          have hm1 : laA'.ax.draw [.points "" [0] [w]] = laA2.ax := congrArg Prod.fst hm.1
          have ht' : text = s!"Sampled points ({s.configs.length}, {names.sampler})" := by
            rcases ht with ht | ht
            · cases ht
            · exact ht.2
          have hF4 : laF'.handles = [(names.surrogate ++ "-$\\mu$", .line "blue" xm ym), (names.surrogate ++ "-$\\mu\\pm$1$\\sigma$", a),
              (names.surrogate ++ "-$\\mu\\pm$2$\\sigma$", c), (s!"Sampled points ({s.configs.length}, {names.sampler})", .points "red" xp yp)] := by
            rw [c2, b2, a2, ht']; rfl
          have hA4 : laA2.handles = [(names.acquisition, .line "darkgreen" xa ya),
              (s!"Optimum ({names.optimum (.config best)})", .points "red" [x] [value best])] := by
            rw [hm.2, d2]; rfl
          have hcol : ∀ {p q : Shape ℝ} {k : ℝ}, LinesOf "blue" xc yc sc k [p, q] → ∃ lo, p = .line "blue" xc lo :=
            fun ⟨lo, _, e, _⟩ => ⟨lo, by simpa using (List.cons.inj e).1⟩
          obtain ⟨lo1, rfl⟩ := hcol ha
          obtain ⟨lo2, rfl⟩ := hcol hc
          refine ⟨_, _, _, _, _, _, _, _, xa, ya, best, x, rngA, rfl, hF4, ?_, hA4, ?_, ?_, ?_⟩
          · rw [hF4, c1, b1, a1]
            simp
          · rw [hA4, ← hm1]
            simp [d1]
          · have := hbest rfl
            simpa [hname] using this
          · rw [hF4, hA4]
            intro e he he'
            simp only [List.mem_cons, List.not_mem_nil, or_false] at he he'
            rcases he' with rfl | rfl
            · simp at he
            · simp only [Prod.mk.injEq, reduceCtorEq, and_false, false_or] at he
              exact absurd he.1 (label_ne _ _ _)

end bayesian

/-! ### labels that coincide -/

theorem digit_toList {d : Nat} (h : d < 10) : (toString d).toList = [d.digitChar] := by
  show d.repr.toList = _
  rw [Nat.toList_repr, Nat.toDigits_of_lt_base h]

theorem hundredths_inj {a b : Nat} (h : hundredths a = hundredths b) : a = b := by
  have h1 := congrArg String.toList h
  unfold hundredths at h1
  simp only [String.toList_append] at h1
  obtain ⟨h2, h3⟩ := List.append_inj' h1 (by rw [digit_toList (by omega), digit_toList (by omega)]; rfl)
  obtain ⟨h4, h5⟩ := List.append_inj' h2 (by rw [digit_toList (by omega), digit_toList (by omega)]; rfl)
  obtain ⟨h6, -⟩ := List.append_inj' h4 rfl
  have e1 := toString_nat_inj (String.toList_inj.1 h3)
  have e2 := toString_nat_inj (String.toList_inj.1 h5)
  have e3 := toString_nat_inj (String.toList_inj.1 h6)
  omega

theorem toString_ne_hundredths (a b : Nat) : toString a ≠ hundredths b := by
  intro h
  have h1 : '.' ∈ (toString a).toList := by
    rw [h]
    unfold hundredths
    simp [String.toList_append]
  have h2 : (toString a).toList = Nat.toDigits 10 a := Nat.toList_repr
  rw [h2] at h1
  have := Nat.isDigit_of_mem_toDigits (by norm_num) (by norm_num) h1
  exact absurd this (by decide)

theorem text_eq {k k' : Factor} (hk : 0 ≤ k.value) (hk' : 0 ≤ k'.value) : k.text = k'.text ↔ LooksLike k k' := by
  have hint : ∀ {n : Int}, 0 ≤ (Factor.int n).value → ∃ m : Nat, n = m := fun {n} h => by
    have h1 : (0 : ℝ) ≤ n := h
    exact ⟨n.toNat, (Int.toNat_of_nonneg (by exact_mod_cast h1)).symm⟩
  cases k with
  | int n =>
    obtain ⟨m, rfl⟩ := hint hk
    cases k' with
    | int n' =>
      obtain ⟨m', rfl⟩ := hint hk'
      exact ⟨fun h => congrArg Int.ofNat (toString_nat_inj h), fun h => by rw [show (m : Int) = m' from h]⟩
    | float y => exact ⟨fun h => toString_ne_hundredths _ _ h, fun h => h.elim⟩
  | float x =>
    cases k' with
    | int n' =>
      obtain ⟨m', rfl⟩ := hint hk'
      exact ⟨fun h => toString_ne_hundredths _ _ h.symm, fun h => h.elim⟩
    | float y =>
      have hx : 0 ≤ x := hk
      have hy : 0 ≤ y := hk'
      constructor
      · intro h
        have e := hundredths_inj h
        have h1 := roundEven_nonneg (show 0 ≤ 100 * x by linarith)
        have h2 := roundEven_nonneg (show 0 ≤ 100 * y by linarith)
        have e' : roundEven (100 * x) = roundEven (100 * y) := by omega
        exact ⟨_, roundEven_spec _, e' ▸ roundEven_spec _⟩
      · rintro ⟨h, h1, h2⟩
        simp only [Factor.text]
        rw [rounds_unique (roundEven_spec _) h1, rounds_unique (roundEven_spec _) h2]

theorem sigmaLabel_eq (name : String) (k k' : Factor) : sigmaLabel name k = sigmaLabel name k' ↔ k.text = k'.text := by
  unfold sigmaLabel
  constructor
  · intro h
    have h1 := congrArg String.toList h
    simp only [String.toList_append] at h1
    exact String.toList_inj.1 (List.append_cancel_left (List.append_cancel_right h1))
  · intro h; rw [h]

/-- **C120** The lines of two factors have the same label exactly if the factors are the same integer, or are not integers and agree after rounding to two decimals. -/
theorem C120_labels {name : String} (hn : VisibleName name) {x means : List ℝ} {stds variances : Option (List ℝ)} {color : String} {k k' : Factor} {la la' : LAx ℝ}
    (h0 : k.value ≠ 0) (hk : k.value < k'.value) (h : confidenceLinesL name x means stds variances color (.seq [k, k']) la = (la', .ok ())) :
    ∃ t t' p p', la'.handles = la.handles ++ [(t, p), (t', p')] ∧ (t = t' ↔ LooksLike k k') := by
  obtain ⟨s, so, pairs, -, hpos, hperm, hsort, h2, -, h4⟩ := lines_labels hn h
  have hle : ∀ j ∈ [k, k'], 0 ≤ j.value := fun j hj => by
    by_cases e : j.value = 0
    · exact e.ge
    · exact hpos j (hperm.mem_iff.2 (List.mem_filter.2 ⟨hj, by simpa using e⟩))
  have hk0 : 0 ≤ k.value := hle k (by simp)
  have h0' : k'.value ≠ 0 := (lt_of_le_of_lt hk0 hk).ne'
  rw [show [k, k'].filter (fun k => decide (k.value ≠ 0)) = [k, k'] by simp [h0, h0']] at hperm
  have hso : so = [k, k'] := by
    rcases List.perm_pair.1 hperm with e | e
    · exact e
    · rw [e] at hsort
      simp at hsort
      exact absurd hk (not_lt.2 hsort)
  subst hso
  cases h2 with
  | cons ha h2 =>
    cases h2 with
    | cons hb h2 =>
      cases h2
      rename_i p q
      refine ⟨sigmaLabel name k, sigmaLabel name k', p.1, q.1, ?_, ?_⟩
      · rw [h4, if_neg (by simp [Ne.symm h0, Ne.symm h0'])]
        simp
      · rw [sigmaLabel_eq]
        exact text_eq (hle k (by simp)) (hle k' (by simp))

theorem labelled_line {t : String} (ht : shownLabel (some t) = true) {color : String} {alpha : ℝ} {xs ys : List ℝ} (ha : 0 ≤ alpha ∧ alpha ≤ 1 ∧ xs.length = ys.length)
    (la : LAx ℝ) : LPlot.labelled (some t) (drawLine color alpha xs ys) la = (⟨la.ax.draw [.line color xs ys], la.handles ++ [(t, .line color xs ys)]⟩, .ok ()) := by
  have h1 : drawLine color alpha xs ys la.ax = (la.ax.draw [.line color xs ys], .ok ()) := by
    unfold drawLine
    rw [if_pos ha]; rfl
  unfold LPlot.labelled
  rw [h1]
  simp only [Ax.draw_shapes, List.getLast?_append, List.getLast?_singleton, Option.some_or, ht, if_true]

theorem of_line {color : String} {alpha : ℝ} {xs ys : List ℝ} (ha : 0 ≤ alpha ∧ alpha ≤ 1 ∧ xs.length = ys.length) (la : LAx ℝ) :
    LPlot.of (drawLine color alpha xs ys) la = (⟨la.ax.draw [.line color xs ys], la.handles⟩, .ok ()) := by
  unfold LPlot.of drawLine
  rw [if_pos ha]; rfl

theorem sigmaLoopL_point {name : String} (hn : VisibleName name) (color : String) {v : ℝ} (hv : 1 ≤ v) {ks : List Factor} {la la' : LAx ℝ}
    (h : sigmaLoopL name color [0] [0] [1] ks
      ⟨(la.ax.draw [.line color [0] [0 + -v * 1]]).draw [.line color [0] [0 + v * 1]], la.handles ++ [(sigmaLabel name (.float v), .line color [0] [0 + -v * 1])]⟩ = (la', .ok ())) :
    sigmaLoopL name color [0] [0] [1] (.float v :: ks) la = (la', .ok ()) := by
  have hv0 : v ≠ 0 := by rintro rfl; norm_num at hv
  have ha : 0 ≤ 1 / v * (1 / 5) ∧ 1 / v * (1 / 5) ≤ 1 := by
    have h1 : 0 < 1 / v := one_div_pos.2 (by linarith)
    have h2 : 1 / v ≤ 1 := by rw [div_le_one (by linarith)]; exact hv
    constructor <;> linarith
  unfold sigmaLoopL
  rw [if_neg (show ¬ (Factor.float v).value = 0 from hv0)]
  exact LPlot.lift_bind_eq_ok.2 ⟨_, rfl, LPlot.bind_eq_ok.2 ⟨_, (), labelled_line (hn.sigma _) (color := color) (xs := [0]) (ys := [0 + -v * 1]) ⟨ha.1, ha.2, rfl⟩ la,
    LPlot.lift_bind_eq_ok.2 ⟨_, rfl, LPlot.bind_eq_ok.2 ⟨_, (), of_line (color := color) (xs := [0]) (ys := [0 + v * 1]) ⟨ha.1, ha.2, rfl⟩ _, h⟩⟩⟩⟩

/-- **C120** is false of labels as a means to tell lines apart: 1.001 and 1.002 standard deviations are both called 1.00. -/
theorem C120_labels_counterexample {name : String} (hn : VisibleName name) (color : String) (la : LAx ℝ) :
    ∃ la' p q, confidenceLinesL name [0] [0] (some [1]) none color (.seq [.float 1.001, .float 1.002]) la = (la', .ok ()) ∧
      la'.handles = la.handles ++ [(name ++ "-$\\mu\\pm$1.00$\\sigma$", p), (name ++ "-$\\mu\\pm$1.00$\\sigma$", q)] ∧ p ≠ q := by
  have h1 : ∀ x : ℝ, 0 < x → x < 0.005 → sigmaLabel name (.float (1 + x)) = name ++ "-$\\mu\\pm$1.00$\\sigma$" := fun x hx hx' => by
    have : roundEven (100 * (1 + x)) = 100 := rounds_unique (roundEven_spec _) ⟨by rw [abs_le]; constructor <;> push_cast <;> norm_num at * <;> linarith, fun _ => rfl⟩
    simp only [sigmaLabel, Factor.text, this, String.append_assoc]
    rfl
  have ha := h1 0.001 (by norm_num) (by norm_num)
  have hb := h1 0.002 (by norm_num) (by norm_num)
  rw [show (1 + 0.001 : ℝ) = 1.001 by norm_num] at ha
  rw [show (1 + 0.002 : ℝ) = 1.002 by norm_num] at hb
  have hsort : ([.float 1.001, .float 1.002] : List Factor).mergeSort (fun a b => decide (a.value ≤ b.value)) = [.float 1.001, .float 1.002] :=
    List.mergeSort_of_pairwise (by simp [Factor.value]; norm_num)
  have hrun : ∃ la', confidenceLinesL name [0] [0] (some [1]) none color (.seq [.float 1.001, .float 1.002]) la = (la', .ok ()) ∧
      la'.handles = la.handles ++ [(sigmaLabel name (.float 1.001), .line color [0] [0 + -1.001 * 1]), (sigmaLabel name (.float 1.002), .line color [0] [0 + -1.002 * 1])] := by
    unfold confidenceLinesL
    have hz : factorsHaveZero (.seq [.float 1.001, .float 1.002]) = false := by
      simp [factorsHaveZero, Factor.value]; norm_num
    rw [hz]
    simp only [factorsRest]
    rw [hsort]
    exact ⟨_, LPlot.lift_bind_eq_ok.2 ⟨[1], rfl, LPlot.bind_eq_ok.2 ⟨la, (), rfl,
      sigmaLoopL_point hn color (by norm_num) (sigmaLoopL_point hn color (by norm_num) rfl)⟩⟩, by simp⟩
  obtain ⟨la', e1, e2⟩ := hrun
  rw [ha, hb] at e2
  exact ⟨la', _, _, e1, e2, by norm_num⟩

/-- **C120** over one hyperparameter a callable without a name, such as a `functools.partial`, cannot be plotted: `plot_function` does not succeed, and the legend does not
change. -/
theorem C120_nameless_counterexample {f : List (String × Val ℝ) → Py ℝ} {cs : ConfigSpace ℝ} (hcs : (varying cs).length = 1) {n : Nat} {color : String} {la la' : LAx ℝ}
    {r : Py Unit} (h : plotFunctionL none f cs n color la = (la', r)) : r ≠ .ok () ∧ la'.handles = la.handles := by
  refine ⟨fun e => ?_, ?_⟩
  · rw [e] at h
    obtain ⟨l, _, _, hl, -⟩ := (C120_function h).1 hcs
    cases hl
  · have hof : ∀ {α : Type} (p : Plot ℝ α) (la : LAx ℝ), (LPlot.of p la).1.handles = la.handles := fun p la => rfl
    have hbind : ∀ {α β : Type} (p : Plot ℝ α) (q : α → LPlot ℝ β) (la : LAx ℝ), (∀ a la1, (q a la1).1.handles = la1.handles) →
        ((LPlot.of p >>= q) la).1.handles = la.handles := fun p q la hq => by
      show (LPlot.bind (LPlot.of p) q la).1.handles = _
      unfold LPlot.bind
      have h1 := hof p la
      split
      · next h2 => rw [hq]; rw [h2] at h1; exact h1
      · next h2 => rw [h2] at h1; exact h1
    rw [show la' = (plotFunctionL none f cs n color la).1 from by rw [h]]
    unfold plotFunctionL
    split
    · rfl
    · split
      · rfl
      · refine hbind _ _ _ fun ranges la1 => hbind _ _ _ fun _ la2 => ?_
        generalize parametersOf cs = hps
        match hps with
        | [] => rfl
        | [p] =>
          simp only [plotValuesL]
          exact hbind _ _ _ fun x la3 => hbind _ _ _ fun y la4 => rfl
        | [_, _] => rfl
        | _ :: _ :: _ :: _ => rfl

/-- **C120** the plots of a region are those of its mean curve, with the name "PDP in Region". -/
theorem C120_region {cs : ConfigSpace ℝ} {selected : List (Hp ℝ)} {node : Node ℝ} {la la' : LAx ℝ} :
    (∀ {color}, regionPlotValuesL color cs selected node la = (la', .ok ()) → ∃ c, regionPdp cs selected node = .ok c ∧
      (selected.length = 1 → ∃ xs, Adds la la' [.line color xs c.y] [("PDP in Region", .line color xs c.y)]) ∧
      (selected.length ≠ 1 → la'.handles = la.handles)) ∧
    ∀ {lineColor gradientColor m}, regionPlotConfidencesL lineColor gradientColor m cs selected node la = (la', .ok ()) → ∃ c, regionPdp cs selected node = .ok c ∧
      (selected.length = 1 → ∃ xs, AddsConfidence "PDP in Region" lineColor xs c.y (c.v.map Real.sqrt) la la') ∧
      (selected.length ≠ 1 → la'.handles = la.handles) := by
  have hn : VisibleName "PDP in Region" := ⟨by decide, by decide⟩
  have hsel : ∀ {c : IceCurve ℝ}, regionPdp cs selected node = .ok c → c.selected = selected := fun {c} h => by
    unfold regionPdp at h
    rw [Py.bind_eq_ok] at h
    obtain ⟨x, -, h⟩ := h
    rw [Py.bind_eq_ok] at h
    obtain ⟨y, -, h⟩ := h
    rw [Py.bind_eq_ok] at h
    obtain ⟨v, -, h⟩ := h
    cases h; rfl
  refine ⟨fun {color} h => ?_, fun {lc gc m} h => ?_⟩
  · unfold regionPlotValuesL at h
    rw [LPlot.lift_bind_eq_ok] at h
    obtain ⟨c, hc, h⟩ := h
    have := C120_values hn h
    rw [hsel hc] at this
    exact ⟨c, hc, this⟩
  · unfold regionPlotConfidencesL at h
    rw [LPlot.lift_bind_eq_ok] at h
    obtain ⟨c, hc, h⟩ := h
    have := C120_confidences hn h
    rw [hsel hc] at this
    exact ⟨c, hc, this⟩

/-! ### examples -/

/-- the legend of a full PDP over one of two hyperparameters, two samples and three grid points -/
example : ∃ s' la one two, fullPdpL ⟨⟨exSumSpace, [⟨"x1", .float (-5) 5 false⟩], [[0, 1 / 2], [1, 1]], 2, 3, 3, false, exSum⟩, none, none, none, none⟩ = (s', la, .ok ()) ∧
    la.handles = [("ICE", .line "red" [] []), ("PDP", .line "black" [-5, 0, 5] [3 / 4, 5 / 4, 7 / 4]), ("PDP-$\\mu\\pm$1$\\sigma$", one),
      ("PDP-$\\mu\\pm$2$\\sigma$", two)] := by
  obtain ⟨hwf, hcs, hne, hp, hd⟩ := exSum_ok
  obtain ⟨s', la, a, b, c, d, h1, -, -, h2⟩ := C120_full_pdp
    (s := ⟨⟨exSumSpace, [⟨"x1", .float (-5) 5 false⟩], [[0, 1 / 2], [1, 1]], 2, 3, 3, false, exSum⟩, none, none, none, none⟩)
    ⟨rfl, rfl, rfl⟩ rfl (mu := fun r => r.sum) (sd := fun _ => 2)
    (plottable_drawn hwf hcs hp (perAxis := 3) (by norm_num) hd (sel := [⟨"x1", .float (-5) 5 false⟩]) (by simp [exSumSpace]) (by simp) (by simp))
    rfl (Or.inl rfl) (f := 0) ⟨_, rfl, rfl⟩
  dsimp only at h2
  rw [exMeans.1, exMeans.2.1] at h2
  exact ⟨s', la, a, c, h1, h2⟩

/-- the figure of the optimisation: with no sampled points, a surrogate model and the acquisition function shown in example classes -/
example : ∃ rng' laF laA curve opt, fullBayesianL ⟨"GaussianProcessSurrogate", "BayesianOptimizationSampler", "LowerConfidenceBound", fun _ => "best"⟩ exArgsort exSum
      [⟨"x1", .float 1 3 false⟩] (⟨[], [], [], 0, ()⟩ : SamplerState (Config ℝ) ℝ Unit) exOneDrawer 3 exOneValue 0 =
        (rng', laF, laA, .ok [("LowerConfidenceBound", curve), ("Optimum (best)", opt)]) ∧
    laF.handles.map Prod.fst = ["GaussianProcessSurrogate-$\\mu$", "GaussianProcessSurrogate-$\\mu\\pm$1$\\sigma$",
      "GaussianProcessSurrogate-$\\mu\\pm$2$\\sigma$", "Sampled points (0, BayesianOptimizationSampler)"] := by
  obtain ⟨rng', laF, laA, shown, mean, one, two, points, xa, ya, best, x, rng2, h1, h2, -, rfl, -⟩ := C120_full_bayesian_counterexample (X := Unit)
    exArgsort_sorts (hp := ⟨"x1", .float 1 3 false⟩) rfl ⟨Or.inl rfl, by norm_num, by simp⟩ (mu := fun r => r.sum) (sd := fun _ => 2) (fun _ _ _ => rfl : RowWise 1 exSum _ _) (fun _ => by norm_num)
    (s := ⟨[], [], [], 0, ()⟩) rfl (xs := []) .nil exOneDrawer (n := 3) (by norm_num) exOneValue exOneDrawer_ok.1 exOneDrawer_ok.2 0
    (names := ⟨"GaussianProcessSurrogate", "BayesianOptimizationSampler", "LowerConfidenceBound", fun _ => "best"⟩) ⟨by decide, by decide⟩ ⟨by decide, by decide⟩
  refine ⟨rng', laF, laA, _, _, h1, ?_⟩
  rw [h2]
  rfl

example : FactorText (.int 2) "2" ∧ FactorText (.float 1.5) "1.50" ∧ FactorText (.float 0.125) "0.12" ∧ FactorText (.float 0.135) "0.14" := by
  refine ⟨rfl, ⟨150, ⟨?_, ?_⟩, rfl⟩, ⟨12, ⟨?_, ?_⟩, rfl⟩, ⟨14, ⟨?_, ?_⟩, rfl⟩⟩ <;> norm_num

example : LooksLike (.float 1.001) (.float 1.002) ∧ ¬ LooksLike (.int 1) (.float 1) ∧ ¬ LooksLike (.int 1) (.int 2) := by
  refine ⟨⟨100, ⟨?_, ?_⟩, ⟨?_, ?_⟩⟩, fun h => h, fun h => absurd (show (1 : Int) = 2 from h) (by decide)⟩ <;> norm_num

/-- labels that are empty or begin with an underscore are not listed -/
example : shownLabel (some "_nolegend_") = false ∧ shownLabel (some "") = false ∧ shownLabel (some "PDP") = true := by decide

end PyPDP
