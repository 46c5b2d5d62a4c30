/-
C92: AcquisitionFunction.plot.
-/
import Verif.Model.AcquisitionPlot
import Verif.Props.SamplerPlots
import Verif.Props.Acquisition

namespace PyPDP
open Spec
variable {K S : Type}

theorem sampleConfiguration_many {C : Type} (d : Drawer C S) (rng : S) {n : Int} (hn : 2 ≤ n) :
    d.sampleConfiguration rng n = (.many (d.draw rng n.toNat).1, (d.draw rng n.toNat).2) := by
  unfold Drawer.sampleConfiguration
  rw [if_neg (by omega)]
  dsimp only
  rw [if_neg (by omega)]

theorem mapM_ok_of {α β : Type} {f : α → Py β} {l : List α} (h : ∀ a ∈ l, ∃ b, f a = .ok b) : ∃ r, l.mapM f = .ok r := by
  induction l with
  | nil => exact ⟨[], rfl⟩
  | cons a l ih =>
    obtain ⟨b, hb⟩ := h a List.mem_cons_self
    obtain ⟨r, hr⟩ := ih fun a ha => h a (List.mem_cons_of_mem _ ha)
    exact ⟨b :: r, by rw [List.mapM_cons, hb, Py.ok_bind, hr, Py.ok_bind]; rfl⟩

theorem configRows_ok {name : String} {configs : List (Config K)} {xs : List K} (h : ReadsAs name configs xs) :
    (configs.mapM fun c => [name].mapM (configValue c)) = .ok (xs.map fun v => [.num v]) := by
  rw [Py.mapM_eq_ok, List.forall₂_map_right_iff]
  refine h.imp fun c v hc => ?_
  simp [configValue, hc, Py.ok_bind]

theorem numberColumn_singletons (xs : List K) : numberColumn 0 (xs.map fun v => [Val.num v]) = .ok xs := by
  unfold numberColumn
  rw [Py.mapM_eq_ok, List.forall₂_map_left_iff]
  exact List.forall₂_same.2 fun v _ => rfl

variable [Field K] [LinearOrder K]

/-- the plot of one hyperparameter up to the optimum -/
theorem acq_core {argsort : List K → List Nat} (hsort : Argsort argsort) [IsStrictOrderedRing K] {cs : ConfigSpace K} {sel : Selection K}
    {hp : Hp K} (hsel : getHyperparameters sel cs = .ok [hp]) (d : Drawer (Config K) S) {n : Int} (hn : 2 ≤ n) (value : Config K → K)
    (rng : S) {xs : List K} (hxs : ReadsAs hp.name (d.draw rng n.toNat).1 xs) (colorAcq colorOpt : String) (b : Bool) {ax ax' : Ax K}
    (hax : checkAndSetAxis [hp] true "Acquisition" ax = (ax', .ok ())) :
    ∃ xo yo best, xo.length = n.toNat ∧ yo.length = n.toNat ∧ xo.Pairwise (· ≤ ·) ∧
      (xo.zip yo).Perm (xs.zip ((d.draw rng n.toNat).1.map value)) ∧ FirstMax value (d.draw (d.draw rng n.toNat).2 n.toNat).1 best ∧
      acqPlot argsort colorAcq colorOpt b cs d n value sel rng ax = ((d.draw (d.draw rng n.toNat).2 n.toNat).2,
        ((if b then drawOptimum colorOpt value (.config best) else pure () : Plot K Unit)
          (ax'.draw [.band colorAcq xo yo (yo.map fun _ => 0), .line colorAcq xo yo]))) := by
  have hl := hxs.length_eq
  rw [d.draw_length] at hl
  have hperm := hsort.perm xs
  have hlt : ∀ i ∈ argsort xs, i < xs.length := fun i hi => List.mem_range.1 (hperm.mem_iff.1 hi)
  have hys : ((d.draw rng n.toNat).1.map value).length = xs.length := by rw [List.length_map, d.draw_length, hl]
  obtain ⟨xo, hx1, hx2⟩ := mapM_pyGet_ok (l := xs) hlt
  obtain ⟨yo, hy1, hy2⟩ := mapM_pyGet_ok (l := (d.draw rng n.toNat).1.map value) (idx := argsort xs) (by rw [hys]; exact hlt)
  have hol : (argsort xs).length = n.toNat := by rw [hperm.length_eq, List.length_range, hl]
  have h1 : xo.length = n.toNat := by rw [← hx2.length_eq, hol]
  have h2 : yo.length = n.toNat := by rw [← hy2.length_eq, hol]
  obtain ⟨best, hb1, hb2⟩ := C39_best_partial (cs.map Hp.name) d hn value (d.draw rng n.toNat).2
  refine ⟨xo, yo, best, h1, h2, hsort.sorts xs xo hx2, zip_picked hys.symm hx2 hy2 hperm, hb2, ?_⟩
  unfold acqPlot
  rw [hsel]
  dsimp only
  rw [hax]
  dsimp only
  rw [show n * (([hp] : List (Hp K)).length : Int) = n by simp, sampleConfiguration_many d rng hn]
  dsimp only [acqConfigs]
  have hrows := configRows_ok hxs
  rw [show ((d.draw rng n.toNat).1.mapM fun c => [hp].mapM fun hp => configValue c hp.name) =
    ((d.draw rng n.toNat).1.mapM fun c => [hp.name].mapM (configValue c)) from by
      rfl, hrows]
  dsimp only
  rw [hb1]
  dsimp only
  simp only [drawAcquisition]
  rw [numberColumn_singletons, Plot.lift_bind_ok]
  unfold takeOrder
  rw [hx1, Plot.lift_bind_ok, hy1, Plot.lift_bind_ok]
  unfold drawBand plotLine drawLine
  rw [if_pos ⟨by positivity, by norm_num, by rw [h1, h2], by rw [h1, List.length_map, h2]⟩,
    if_pos ⟨zero_le_one, le_refl _, by rw [h1, h2]⟩, Plot.add_bind, Plot.add_bind]
  simp [Ax.draw]

/-- **C92** one hyperparameter: the acquisition function at every drawn configuration over its value of the hyperparameter, sorted by the
hyperparameter, as a line and as an area down to zero. -/
theorem C92_curve {argsort : List K → List Nat} (hsort : Argsort argsort) [IsStrictOrderedRing K] {cs : ConfigSpace K} {sel : Selection K}
    {hp : Hp K} (hsel : getHyperparameters sel cs = .ok [hp]) (d : Drawer (Config K) S) {n : Int} (hn : 2 ≤ n) (value : Config K → K)
    (rng : S) {xs : List K} (hxs : ReadsAs hp.name (d.draw rng n.toNat).1 xs) (colorAcq colorOpt : String) {ax ax' : Ax K}
    (hax : checkAndSetAxis [hp] true "Acquisition" ax = (ax', .ok ())) :
    ∃ xo yo, acqPlot argsort colorAcq colorOpt false cs d n value sel rng ax = ((d.draw (d.draw rng n.toNat).2 n.toNat).2,
        ax'.draw [.band colorAcq xo yo (List.replicate n.toNat 0), .line colorAcq xo yo], .ok ()) ∧
      xo.length = n.toNat ∧ yo.length = n.toNat ∧ xo.Pairwise (· ≤ ·) ∧ (xo.zip yo).Perm (xs.zip ((d.draw rng n.toNat).1.map value)) := by
  obtain ⟨xo, yo, best, h1, h2, h3, h4, -, h5⟩ := acq_core hsort hsel d hn value rng hxs colorAcq colorOpt false hax
  refine ⟨xo, yo, ?_, h1, h2, h3, h4⟩
  rw [h5, List.map_const', h2]
  rfl

omit [Field K] [LinearOrder K] in
theorem drawOptimum_first {best : Config K} {p : Hp K} {rest : ConfigSpace K} (hb : best.values.map Prod.fst = (p :: rest).map Hp.name) {v : K}
    (hv : best.get? p.name = some (.num v)) (color : String) (value : Config K → K) (ax : Ax K) :
    drawOptimum color value (.config best) ax = (ax.draw [.points color [v] [value best]], .ok ()) := by
  obtain ⟨vec, vals⟩ := best
  rcases vals with - | ⟨⟨nm, w⟩, vals⟩
  · simp at hb
  · simp only [List.map_cons, List.cons.injEq] at hb
    have hw : w = .num v := by
      simpa [Config.get?, List.find?, hb.1] using hv
    subst hw
    unfold drawOptimum
    simp only [firstValue, asNumber, valueAt]
    rw [Plot.lift_bind_ok, Plot.lift_bind_ok]
    unfold drawPoints
    rw [if_pos (by simp), Plot.add_eq]

omit [Field K] [LinearOrder K] in
theorem readsAs_mem {name : String} {configs : List (Config K)} {xs : List K} (h : ReadsAs name configs xs) {c : Config K} (hc : c ∈ configs) :
    ∃ v ∈ xs, c.get? name = some (.num v) := by
  unfold ReadsAs at h
  induction h with
  | nil => cases hc
  | cons h _ ih =>
    rcases List.mem_cons.1 hc with rfl | hm
    · exact ⟨_, List.mem_cons_self, h⟩
    · obtain ⟨v, hv, e⟩ := ih hm
      exact ⟨v, List.mem_cons_of_mem _ hv, e⟩

/-- **C92** the optimum in every case: whichever hyperparameter is shown, a point over the best candidate's value of the first
hyperparameter of the space (`p`); the curve is that of `C92_curve`. -/
theorem C92_optimum_exact {argsort : List K → List Nat} (hsort : Argsort argsort) [IsStrictOrderedRing K] {p : Hp K} {rest : ConfigSpace K}
    {sel : Selection K} {hp : Hp K} (hsel : getHyperparameters sel (p :: rest) = .ok [hp]) (d : Drawer (Config K) S) {n : Int} (hn : 2 ≤ n)
    (value : Config K → K) (rng : S) (hnames : ∀ r k, ∀ c ∈ (d.draw r k).1, c.values.map Prod.fst = (p :: rest).map Hp.name)
    (hp1 : ∀ r k, ∃ xs, ReadsAs p.name (d.draw r k).1 xs) (hnum : ∀ r k, ∃ xs, ReadsAs hp.name (d.draw r k).1 xs)
    (colorAcq colorOpt : String) {ax ax' : Ax K} (hax : checkAndSetAxis [hp] true "Acquisition" ax = (ax', .ok ())) :
    ∃ xo yo best v, acqPlot argsort colorAcq colorOpt true (p :: rest) d n value sel rng ax =
        ((d.draw (d.draw rng n.toNat).2 n.toNat).2, ax'.draw [.band colorAcq xo yo (List.replicate n.toNat 0), .line colorAcq xo yo,
          .points colorOpt [v] [value best]], .ok ()) ∧ xo.length = n.toNat ∧ yo.length = n.toNat ∧
      FirstMax value (d.draw (d.draw rng n.toNat).2 n.toNat).1 best ∧ best.get? p.name = some (.num v) ∧
      ∃ xs, ReadsAs hp.name (d.draw rng n.toNat).1 xs ∧ xo.Pairwise (· ≤ ·) ∧ (xo.zip yo).Perm (xs.zip ((d.draw rng n.toNat).1.map value)) := by
  obtain ⟨xs, hxs⟩ := hnum rng n.toNat
  obtain ⟨xo, yo, best, h1, h2, hpair, hperm, h4, h5⟩ := acq_core hsort hsel d hn value rng hxs colorAcq colorOpt true hax
  have hmem : best ∈ (d.draw (d.draw rng n.toNat).2 n.toNat).1 := by
    obtain ⟨k, hk, -⟩ := h4
    exact List.mem_of_getElem? hk
  obtain ⟨zs, hzs⟩ := hp1 (d.draw rng n.toNat).2 n.toNat
  obtain ⟨v, -, hv⟩ := readsAs_mem hzs hmem
  refine ⟨xo, yo, best, v, ?_, h1, h2, h4, hv, xs, hxs, hpair, hperm⟩
  rw [h5, List.map_const', h2, if_pos rfl, drawOptimum_first (hnames _ _ best hmem) hv, Ax.draw_draw]
  rfl

/-- **C92**, partial: if the shown hyperparameter is the first of the space, the optimum is a point over its value in the best of the
candidates of a further draw, at the acquisition value there. Missing: any other hyperparameter, see `C92_optimum_counterexample`. -/
theorem C92_optimum_partial {argsort : List K → List Nat} (hsort : Argsort argsort) [IsStrictOrderedRing K] {rest : ConfigSpace K}
    {sel : Selection K} {hp : Hp K} (hsel : getHyperparameters sel (hp :: rest) = .ok [hp]) (d : Drawer (Config K) S) {n : Int} (hn : 2 ≤ n)
    (value : Config K → K) (rng : S) (hnames : ∀ r k, ∀ c ∈ (d.draw r k).1, c.values.map Prod.fst = (hp :: rest).map Hp.name)
    (hnum : ∀ r k, ∃ xs, ReadsAs hp.name (d.draw r k).1 xs) (colorAcq colorOpt : String) {ax ax' : Ax K}
    (hax : checkAndSetAxis [hp] true "Acquisition" ax = (ax', .ok ())) :
    ∃ xo yo best v, acqPlot argsort colorAcq colorOpt true (hp :: rest) d n value sel rng ax =
        ((d.draw (d.draw rng n.toNat).2 n.toNat).2, ax'.draw [.band colorAcq xo yo (List.replicate n.toNat 0), .line colorAcq xo yo,
          .points colorOpt [v] [value best]], .ok ()) ∧ xo.length = n.toNat ∧ yo.length = n.toNat ∧
      FirstMax value (d.draw (d.draw rng n.toNat).2 n.toNat).1 best ∧ best.get? hp.name = some (.num v) ∧
      ∃ xs, ReadsAs hp.name (d.draw rng n.toNat).1 xs ∧ xo.Pairwise (· ≤ ·) ∧ (xo.zip yo).Perm (xs.zip ((d.draw rng n.toNat).1.map value)) :=
  C92_optimum_exact hsort hsel d hn value rng hnames hnum hnum colorAcq colorOpt hax

/-- **C92** is false for every other hyperparameter: whichever hyperparameter is shown, the point of the optimum is over the value of the
first hyperparameter of the space. If all values of the first are below all values of the shown one, the point is not over the value of
any candidate and outside the limits of the axis. -/
theorem C92_optimum_counterexample {argsort : List K → List Nat} (hsort : Argsort argsort) [IsStrictOrderedRing K] {p : Hp K}
    {rest : ConfigSpace K} {sel : Selection K} {hp : Hp K} (hsel : getHyperparameters sel (p :: rest) = .ok [hp]) (d : Drawer (Config K) S)
    {n : Int} (hn : 2 ≤ n) (value : Config K → K) (rng : S)
    (hnames : ∀ r k, ∀ c ∈ (d.draw r k).1, c.values.map Prod.fst = (p :: rest).map Hp.name) {l u : K} {g : Bool} (hk : hp.kind = .float l u g)
    (hp1 : ∀ r k, ∃ xs, ReadsAs p.name (d.draw r k).1 xs ∧ ∀ v ∈ xs, v < l)
    (hnum : ∀ r k, ∃ xs, ReadsAs hp.name (d.draw r k).1 xs ∧ ∀ v ∈ xs, l ≤ v)
    (colorAcq colorOpt : String) {ax ax' : Ax K} (hax : checkAndSetAxis [hp] true "Acquisition" ax = (ax', .ok ())) :
    ∃ xo yo best v w, acqPlot argsort colorAcq colorOpt true (p :: rest) d n value sel rng ax =
        ((d.draw (d.draw rng n.toNat).2 n.toNat).2, ax'.draw [.band colorAcq xo yo (List.replicate n.toNat 0), .line colorAcq xo yo,
          .points colorOpt [v] [value best]], .ok ()) ∧
      FirstMax value (d.draw (d.draw rng n.toNat).2 n.toNat).1 best ∧ best.get? p.name = some (.num v) ∧
      best.get? hp.name = some (.num w) ∧ v < w ∧ ax'.xlim = some (l, u) ∧ v < l := by
  obtain ⟨xo, yo, best, v, h1, h2, h3, h4, h5, -⟩ := C92_optimum_exact hsort hsel d hn value rng hnames (fun r k => (hp1 r k).imp fun _ h => h.1)
    (fun r k => (hnum r k).imp fun _ h => h.1) colorAcq colorOpt hax
  have hmem : best ∈ (d.draw (d.draw rng n.toNat).2 n.toNat).1 := by
    obtain ⟨k, hk, -⟩ := h4
    exact List.mem_of_getElem? hk
  obtain ⟨zs, hzs, hz⟩ := hp1 (d.draw rng n.toNat).2 n.toNat
  obtain ⟨ws, hws, hw⟩ := hnum (d.draw rng n.toNat).2 n.toNat
  obtain ⟨v', hv', e'⟩ := readsAs_mem hzs hmem
  obtain ⟨w, hwm, ew⟩ := readsAs_mem hws hmem
  have : v' = v := by rw [h5] at e'; cases e'; rfl
  subst this
  refine ⟨xo, yo, best, v', w, h1, h4, h5, ew, lt_of_lt_of_le (hz _ hv') (hw _ hwm), ?_, hz _ hv'⟩
  simp only [checkAndSetAxis] at hax
  split at hax
  · cases hax
  · split at hax
    · cases hax
    · cases hax
      simp [Ax.boundX, Hp.numerical?, hk]

/-- **C92** one hyperparameter and a single candidate: AttributeError, nothing is drawn. -/
theorem C92_single (argsort : List K → List Nat) {cs : ConfigSpace K} {sel : Selection K} {hp : Hp K}
    (hsel : getHyperparameters sel cs = .ok [hp]) (d : Drawer (Config K) S) (value : Config K → K) (rng : S) (colorAcq colorOpt : String)
    (b : Bool) {ax ax' : Ax K} (hax : checkAndSetAxis [hp] true "Acquisition" ax = (ax', .ok ())) :
    acqPlot argsort colorAcq colorOpt b cs d 1 value sel rng ax = ((d.draw rng 1).2, ax', .error .attribute) := by
  obtain ⟨a, ha⟩ := List.length_eq_one_iff.1 (d.draw_length rng 1)
  have e : (d.draw rng (1 : Int).toNat).1 = [a] := ha
  unfold acqPlot
  rw [hsel]
  dsimp only
  rw [hax]
  simp only [Drawer.sampleConfiguration, List.length_singleton, Nat.cast_one, mul_one, lt_self_iff_false, if_false, if_true, e, acqConfigs]
  rfl

/-- **C92** no candidates: ValueError, nothing is drawn and nothing is taken from the random state. -/
theorem C92_none (argsort : List K → List Nat) {cs : ConfigSpace K} {sel : Selection K} {hps : List (Hp K)}
    (hsel : getHyperparameters sel cs = .ok hps) (d : Drawer (Config K) S) {n : Int} (hn : n ≤ 0) (value : Config K → K) (rng : S)
    (colorAcq colorOpt : String) (b : Bool) {ax ax' : Ax K} (hax : checkAndSetAxis hps true "Acquisition" ax = (ax', .ok ())) :
    acqPlot argsort colorAcq colorOpt b cs d n value sel rng ax = (rng, ax', .error .value) := by
  have h1 : n * (hps.length : Int) < 1 := by
    have : n * (hps.length : Int) ≤ 0 := Int.mul_nonpos_of_nonpos_of_nonneg hn (by omega)
    omega
  unfold acqPlot
  rw [hsel]
  dsimp only
  rw [hax]
  dsimp only [Drawer.sampleConfiguration]
  rw [if_pos h1]
  dsimp only [acqConfigs]
  rw [List.mapM_nil]
  have : getOptimum (cs.map Hp.name) d n value rng = (rng, .error .value) := by
    unfold getOptimum Drawer.sampleConfiguration
    rw [if_pos (by omega)]
    rfl
  dsimp only [pure, Except.pure]
  rw [this]

/-- **C92** a selection the space does not know, or an axis that shows something else: the error is passed on, axis and random state are
untouched. -/
theorem C92_refused (argsort : List K → List Nat) {cs : ConfigSpace K} {sel : Selection K} (d : Drawer (Config K) S) (n : Int)
    (value : Config K → K) (rng : S) (colorAcq colorOpt : String) (b : Bool) (ax : Ax K) :
    (∀ e, getHyperparameters sel cs = .error e → acqPlot argsort colorAcq colorOpt b cs d n value sel rng ax = (rng, ax, .error e)) ∧
    ∀ hps ax' e, getHyperparameters sel cs = .ok hps → checkAndSetAxis hps true "Acquisition" ax = (ax', .error e) →
      acqPlot argsort colorAcq colorOpt b cs d n value sel rng ax = (rng, ax, .error .value) := by
  constructor
  · intro e h
    unfold acqPlot
    rw [h]
  · intro hps ax' e h hax
    have := (C71_rejected ax hps true "Acquisition").2 e (by rw [hax])
    rw [hax] at this
    obtain ⟨rfl, he⟩ := this
    dsimp only at he
    subst he
    unfold acqPlot
    rw [h]
    dsimp only
    rw [hax]

/-- **C92** any other number of hyperparameters of the space: NotImplementedError after both draws, nothing is drawn. -/
theorem C92_many (argsort : List K → List Nat) {cs : ConfigSpace K} (hwf : cs.WF) {sel : Selection K} {hps : List (Hp K)}
    (hsel : getHyperparameters sel cs = .ok hps) (hin : ∀ hp ∈ hps, hp ∈ cs) (hne : cs ≠ []) (hlen : hps.length ≠ 1)
    (d : Drawer (Config K) S) {n : Int} (hn : 1 ≤ n)
    (hknows : ∀ r k, ∀ c ∈ (d.draw r k).1, ∀ hp ∈ cs, ∃ v, c.get? hp.name = some v) (value : Config K → K) (rng : S)
    (colorAcq colorOpt : String) (b : Bool) {ax ax' : Ax K} (hax : checkAndSetAxis hps true "Acquisition" ax = (ax', .ok ())) :
    ∃ rng', acqPlot argsort colorAcq colorOpt b cs d n value sel rng ax = (rng', ax', .error .notImplemented) ∧ ax'.shapes = ax.shapes := by
  have hsh : ax'.shapes = ax.shapes := by
    have := (C71_rejected ax hps true "Acquisition").1
    rwa [hax] at this
  obtain ⟨l, rng1, hdraw, hl⟩ : ∃ l rng1, d.sampleConfiguration rng (n * hps.length) = (.many l, rng1) ∧
      ∀ c ∈ l, ∀ hp ∈ hps, ∃ v, c.get? hp.name = some v := by
    by_cases h0 : hps.length = 0
    · refine ⟨[], rng, ?_, by simp⟩
      unfold Drawer.sampleConfiguration
      rw [if_pos (by rw [h0]; simp)]
    · have h2 : 2 ≤ n * (hps.length : Int) := by
        have : (2 : Int) ≤ hps.length := by omega
        nlinarith
      exact ⟨_, _, sampleConfiguration_many d rng h2, fun c hc hp hm => hknows _ _ c hc hp (hin hp hm)⟩
  obtain ⟨rows, hrows⟩ : ∃ rows, (l.mapM fun c => hps.mapM fun hp => configValue c hp.name) = .ok rows := by
    refine mapM_ok_of fun c hc => mapM_ok_of fun hp hm => ?_
    obtain ⟨v, hv⟩ := hl c hc hp hm
    exact ⟨v, by simp [configValue, hv]⟩
  obtain ⟨rng2, opt, hopt⟩ : ∃ rng2 opt, getOptimum (cs.map Hp.name) d n value rng1 = (rng2, .ok opt) := by
    by_cases h1 : n = 1
    · subst h1
      obtain ⟨p, rest, rfl⟩ := List.exists_cons_of_ne_nil hne
      exact ⟨_, _, Prod.ext rfl (C39_counterexample p.name (rest.map Hp.name) d value rng1)⟩
    · obtain ⟨c, hc, -⟩ := C39_best_partial (cs.map Hp.name) d (n := n) (by omega) value rng1
      exact ⟨_, _, hc⟩
  refine ⟨rng2, ?_, hsh⟩
  unfold acqPlot
  rw [hsel]
  dsimp only
  rw [hax]
  dsimp only
  rw [hdraw]
  dsimp only [acqConfigs]
  rw [hrows]
  dsimp only
  rw [hopt]
  dsimp only
  have : drawAcquisition argsort colorAcq colorOpt b cs value rows (l.map value) opt hps ax' = (ax', .error .notImplemented) := by
    unfold drawAcquisition
    split
    · exact absurd rfl hlen
    · rename_i p q
      have hpos : ∀ hp ∈ [p, q], ∃ i : Nat, ∃ h, cs[i]? = some h ∧ Hp.name h = hp.name := fun hp hm => by
        obtain ⟨i, hi, he⟩ := List.getElem_of_mem (hin hp hm)
        exact ⟨i, hp, by rw [List.getElem?_eq_getElem hi, he], rfl⟩
      obtain ⟨i, hi⟩ := hpos p (by simp)
      obtain ⟨j, hj⟩ := hpos q (by simp)
      rw [(C06_positions hwf [p, q] [i, j]).2 (.cons hi (.cons hj .nil)), Plot.lift_bind_ok, Plot.raise_apply]
    · rfl
  rw [this]

section examples

def exDrawer : Drawer (Config ℚ) Nat :=
  ⟨fun s k => ((List.range k).map fun i => ⟨[], [("a", .num (((s + i) % 3 : Nat) : ℚ)), ("b", .num (12 - 2 * (((s + i) % 3 : Nat) : ℚ)))]⟩, s + k), by simp⟩

/-- the acquisition value is the value of `b`: the optimum is at `a = 0`, `b = 12` -/
def exValue (c : Config ℚ) : ℚ := match c.get? "b" with
  | some (.num v) => v
  | _ => 0

def exSpaceAB : ConfigSpace ℚ := [⟨"a", .float 0 2 false⟩, ⟨"b", .float 8 12 false⟩]

example : (acqPlot exArgsort "g" "r" true exSpaceAB exDrawer 3 exValue (.name "a") 0 Ax.new).2.1.shapes =
    [.band "g" [0, 1, 2] [12, 10, 8] [0, 0, 0], .line "g" [0, 1, 2] [12, 10, 8], .points "r" [0] [12]] := by decide +kernel

/-- shown over `b`, the optimum is marked at the value of `a` -/
example : (acqPlot exArgsort "g" "r" true exSpaceAB exDrawer 3 exValue (.name "b") 0 Ax.new).2.1.shapes =
    [.band "g" [8, 10, 12] [8, 10, 12] [0, 0, 0], .line "g" [8, 10, 12] [8, 10, 12], .points "r" [0] [12]] := by decide +kernel

example : (acqPlot exArgsort "g" "r" true exSpaceAB exDrawer 1 exValue (.name "b") 0 Ax.new).2.2 = .error .attribute ∧
    (acqPlot exArgsort "g" "r" true exSpaceAB exDrawer 0 exValue (.name "b") 0 Ax.new).2.2 = .error .value ∧
    (acqPlot exArgsort "g" "r" true exSpaceAB exDrawer 1 exValue .none 0 Ax.new).2.2 = .error .notImplemented := by decide +kernel

end examples

end PyPDP
