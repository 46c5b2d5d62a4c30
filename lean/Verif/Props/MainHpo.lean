/-
C118: examples/main_hpo_bench.py.
-/
import Verif.Model.MainHpo
import Verif.Props.MainMeta
import Verif.Props.HpoBench
import Verif.Props.SurrogatePlots

namespace PyPDP
open Spec
variable {S σ : Type}

/-- a configuration with a legal value for every hyperparameter of the space -/
def LegalConfig (cs : ConfigSpace ℝ) (c : Config ℝ) : Prop :=
  c.vector.length = cs.length ∧ c.values.map Prod.fst = cs.map Hp.name ∧ LegalKwargs cs c.values

/-- `y` is the entry `function_value` of the outcome for the values of `c` -/
def EvaluatesTo (outcome : Config ℝ → Py (List (String × ℝ))) (c : Config ℝ) (y : ℝ) : Prop :=
  ∃ (config : Config ℝ) (d : List (String × ℝ)), config.values.map Prod.fst = c.values.map Prod.fst ∧ (∀ n v, (n, v) ∈ c.values ↔ (n, v) ∈ config.values) ∧
    outcome config = .ok d ∧ ("function_value", y) ∈ d

/-- the benchmark has a value for every legal configuration, and does not depend on its own random state if it is given a seed -/
structure Benchmark.Total (b : Benchmark ℝ σ) (outcome : Int → Config ℝ → Py (List (String × ℝ))) : Prop where
  seeded : b.Seeded outcome
  value : ∀ config : Config ℝ, LegalKwargs (b.space (some 0)) config.values → ∃ d v, outcome 0 config = .ok d ∧ (d.map Prod.fst).Nodup ∧ ("function_value", v) ∈ d

/-- what the libraries are assumed to do in a run: draws are legal configurations, kernels are covariance functions of variance 1, the cache file (if any) holds
values of the function -/
structure MainInput.Benchmarks (i : MainInput S) (f : BlackboxFn ℝ) : Prop where
  kernel : ∀ Z t, UnitCovariance f.cs.length (i.choose Z t)
  drawn : ∀ s n, ∀ c ∈ (i.drawer.draw s n).1, LegalConfig f.cs c
  candidates : ∀ s n, ∀ c ∈ (i.acqDrawer.draw s n).1, LegalConfig f.cs c
  cache : ∀ p ∈ loadCache i.ofVec i.file, LegalConfig f.cs p.1 ∧ f.call i.inv p.1.values = .ok p.2

/-- What the optimisation of the benchmark did: 92 legal configurations with the benchmark's values, and a Gaussian process fitted to exactly these. Without a cache
file only the first 5 configurations are drawn, all the others are chosen by the lower confidence bound with `tau = 1`. -/
def BenchmarkRun (cs : ConfigSpace ℝ) (i : MainInput S) (outcome : Config ℝ → Py (List (String × ℝ))) (s : BOState (Config ℝ) ℝ GpSurrogate S) (gp : GpSurrogate)
    (mu sd : List ℝ → ℝ) : Prop :=
  s.configs.length = 92 ∧ (∀ c ∈ s.configs, LegalConfig cs c) ∧ List.Forall₂ (EvaluatesTo outcome) s.configs s.ys ∧
  GpSurrogate.new.fit i.choose (s.configs.map Config.vector) s.ys = (gp, .ok ()) ∧ RowWise cs.length gp.predict mu sd ∧ (∀ r, r.length = cs.length → 0 < sd r) ∧
  (loadCache i.ofVec i.file = [] → OptimisedBy cs.length i (.lcb 1) 5 100 s.configs s.ys)

/-- the call of the wrapped benchmark -/
theorem benchmark_call {b : Benchmark ℝ σ} {outcome : Int → Config ℝ → Py (List (String × ℝ))} (hb : b.Total outcome) (hwf : (b.space (some 0)).WF)
    (inv : Hp ℝ → Val ℝ → ℝ) (state : σ) {c : Config ℝ} (hc : LegalConfig (b.space (some 0)) c) :
    ∃ v, (benchmarkFn (hpoInit b (some 0)) state).call inv c.values = .ok v ∧ EvaluatesTo (outcome 0) c v := by
  have hnd : (c.values.map Prod.fst).Nodup := by rw [hc.2.1]; exact hwf
  obtain ⟨config, h1, h2, h3⟩ := C11_legal inv (benchmarkFn (hpoInit b (some 0)) state) hnd hc.2.2
  have hl : LegalKwargs (b.space (some 0)) config.values := by
    refine ⟨fun p hp => hc.2.2.1 p ((h3 p.1 p.2).2 hp), fun hp hm => ?_⟩
    obtain ⟨v, a, e⟩ := hc.2.2.2 hp hm
    exact ⟨v, (h3 _ _).1 a, e⟩
  obtain ⟨d, v, g1, g2, g3⟩ := hb.value config hl
  refine ⟨v, ?_, config, d, h2.trans hc.2.1.symm, h3, g1, g3⟩
  rw [h1]
  exact (value_entry (f := hpoInit b (some 0)) (z := 0) rfl hb.seeded config state).2.1 d v g1 g2 g3

theorem benchmark_run {b : Benchmark ℝ σ} {outcome : Int → Config ℝ → Py (List (String × ℝ))} (hb : b.Total outcome) (hwf : (b.space (some 0)).WF)
    (hne : b.space (some 0) ≠ []) (state : σ) {i : MainInput S} (hi : i.Benchmarks (benchmarkFn (hpoInit b (some 0)) state)) (g0 : Gallery) :
    ∃ s gp mu sd, benchmarkRun i (benchmarkFn (hpoInit b (some 0)) state) g0 = (g0, .ok (s, gp)) ∧ BenchmarkRun (b.space (some 0)) i (outcome 0) s gp mu sd := by
  have hcs : (benchmarkFn (hpoInit b (some 0)) state).cs = b.space (some 0) := rfl
  obtain ⟨hk, hdr, hca, hcache⟩ := hi
  rw [hcs] at hk hdr hca hcache
  obtain ⟨f, hf⟩ : ∃ f, f = benchmarkFn (hpoInit b (some 0)) state := ⟨_, rfl⟩
  have hcall : ∀ c, LegalConfig (b.space (some 0)) c → ∃ v, f.call i.inv c.values = .ok v ∧ EvaluatesTo (outcome 0) c v := fun c hc => by
    rw [hf]; exact benchmark_call hb hwf i.inv state hc
  have hd : 1 ≤ (b.space (some 0)).length := List.length_pos_iff.2 hne
  have hval : ∀ c v, f.call i.inv c.values = .ok v → (callObjective i.inv f).value c = v := fun c v h => by simp only [callObjective, h]
  obtain ⟨env, s, henv, -, hsamp, hlen, hgood, hys⟩ := gp_sampler_good (i := i) hd (names := (b.space (some 0)).map Hp.name) (good := LegalConfig (b.space (some 0)))
    (fun _ h => h.1) hk hdr hca (o := callObjective i.inv f) (fun c hc t => by
      obtain ⟨v, h, -⟩ := hcall c hc
      simp only [callObjective, h])
    (fun p hp => by
      obtain ⟨a, e⟩ := hcache p hp
      rw [← hf] at e
      exact ⟨a, (hval _ _ e).symm⟩) (.lcb 1) (nCandidates := 100) (by norm_num) (initial := 5) (n := 92) (by norm_num) (by norm_num)
  have hlen : s.configs.length = 92 := hlen
  have hne' : s.configs ≠ [] := by intro h; rw [h] at hlen; simp at hlen
  have hyl : s.ys.length = s.configs.length := by rw [hys, List.length_map]
  obtain ⟨gp, hfit, -, mu, sd, hrow, -, hsd⟩ := C99_unit hk (configs_data hd hne' (fun c hc => (hgood c hc).1) hyl)
  refine ⟨s, gp, mu, sd, ?_, hlen, hgood, ?_, hfit, hrow, fun r hr => (hsd r hr).1, fun hno => ?_⟩
  · unfold benchmarkRun
    rw [← hf, Show.lift_bind (by rw [hf, hcs]; exact henv)]
    dsimp only
    rw [Show.sampled_bind (show boSample (callObjective i.inv f) env (startSampler i .new) (80 + 12) = (s, none) from hsamp), Show.changed_bind hfit]
    rfl
  · rw [hys]
    have : ∀ l : List (Config ℝ), (∀ c ∈ l, LegalConfig (b.space (some 0)) c) → List.Forall₂ (EvaluatesTo (outcome 0)) l (l.map (callObjective i.inv f).value) := by
      intro l hl
      induction l with
      | nil => exact .nil
      | cons c l ih =>
        obtain ⟨v, h1, h2⟩ := hcall c (hl c (by simp))
        refine .cons ?_ (ih fun c' hc' => hl c' (by simp [hc']))
        rw [hval c v h1]
        exact h2
    exact this _ hgood
  · exact sampler_points (initial := 5) (n := 92) hd hk (fun r k c hc => (hca r k c hc).1) henv hsamp hno hlen fun c hc => (hgood c hc).1

/-- The one-dimensional array: one axis per hyperparameter in the order of the space, the mean of the predictions over the samples drawn for it and a confidence band;
further axes are empty. -/
def ShowsArray (cs : ConfigSpace ℝ) (perAxis : Nat) (samples : Nat → List (List ℝ)) (mu sd : List ℝ → ℝ) (axes : List (Ax ℝ)) : Prop :=
  cs.length ≤ axes.length ∧
  (∀ (i : Nat) hp l u g, cs[i]? = some hp → (hp.kind = .float l u g ∨ hp.kind = .integer l u g) → ∃ ax shapes, axes[i]? = some ax ∧
    AxisOne hp "Prediction" l u g ax ([.line "red" (naturalGrid l u g perAxis) (pdpMeans (samples i) mu i perAxis)] ++ shapes) ∧
    ShowsConfidence "red" "lightsalmon" (3 / 2) (naturalGrid l u g perAxis) (pdpMeans (samples i) mu i perAxis) (pdpStds (samples i) sd i perAxis) shapes) ∧
  ∀ i < axes.length, cs.length ≤ i → axes[i]? = some Ax.new

/-- The two matrices: in row `q` and column `p` the means (the standard deviations) of the predictions over the values of both, on the diagonal the one-dimensional plot. -/
def ShowsMatrices (cs : ConfigSpace ℝ) (perAxis : Nat) (samples : Hp ℝ → Hp ℝ → List (List ℝ)) (mu sd : List ℝ → ℝ) (M T : List (List (Ax ℝ))) : Prop :=
  M.length = cs.length ∧ T.length = cs.length ∧
  ∀ (i : Nat) q l' u' g', cs[i]? = some q → (q.kind = .float l' u' g' ∨ q.kind = .integer l' u' g') →
    ∃ rowM rowS, M[i]? = some rowM ∧ T[i]? = some rowS ∧ rowM.length = cs.length ∧ rowS.length = cs.length ∧
      (∃ axM axS shapes shapes', rowM[i]? = some axM ∧ rowS[i]? = some axS ∧
        AxisOne q "Prediction" l' u' g' axM ([.line "red" (naturalGrid l' u' g' perAxis) (pdpMeans (samples q q) mu i perAxis)] ++ shapes) ∧
        AxisOne q "Prediction" l' u' g' axS shapes' ∧
        ShowsConfidence "red" "lightsalmon" (3 / 2) (naturalGrid l' u' g' perAxis) (pdpMeans (samples q q) mu i perAxis)
          (pdpStds (samples q q) sd i perAxis) shapes ∧
        ShowsConfidence "red" "lightsalmon" (3 / 2) (naturalGrid l' u' g' perAxis) (pdpMeans (samples q q) mu i perAxis)
          (pdpStds (samples q q) sd i perAxis) shapes') ∧
      ∀ (j : Nat) p l u g, j ≠ i → cs[j]? = some p → (p.kind = .float l u g ∨ p.kind = .integer l u g) →
        ∃ axM axS surface surface', rowM[j]? = some axM ∧ rowS[j]? = some axS ∧
          AxisTwo p q l u g l' u' g' axM surface ∧ AxisTwo p q l u g l' u' g' axS surface' ∧
          Surface l u g l' u' g' perAxis (meanAt (samples q p) mu j i) surface ∧ Surface l u g l' u' g' perAxis (stdAt (samples q p) sd j i) surface'

/-- the files of the two array functions -/
def arrayFiles (task : Int) (name : String) (axes : List (Ax ℝ)) (M T : List (List (Ax ℝ))) (files : List (String × List (Ax ℝ))) : List (String × List (Ax ℝ)) :=
  saveFig (saveFig (saveFig files (toString task ++ "_" ++ name ++ "_hyperparameters_1D") axes) (toString task ++ "_" ++ name ++ "_hyperparameters_2D_mean") M.flatten)
    (toString task ++ "_" ++ name ++ "_hyperparameters_2D_std") T.flatten

theorem benchmark_arrays {cs : ConfigSpace ℝ} (hwf : cs.WF) (hcs : AllDeclared cs) (hne : cs ≠ []) {gp : GpSurrogate} {mu sd : List ℝ → ℝ}
    (hp : RowWise cs.length gp.predict mu sd) {arrayDraws : Nat → Draws (Config ℝ)} {samples : Nat → List (List ℝ)}
    (ha : ∀ j < cs.length, UnitDraws cs (arrayDraws j) (samples j)) {matrixDraws : Hp ℝ → Hp ℝ → Draws (Config ℝ)} {samples2 : Hp ℝ → Hp ℝ → List (List ℝ)}
    (hm : ∀ q ∈ cs, ∀ p ∈ cs, UnitDraws cs (matrixDraws q p) (samples2 q p)) (task : Int) (name : String) (g : Gallery) :
    ∃ axes M T, benchmarkArrays task name gp cs arrayDraws matrixDraws g = (⟨g.count, arrayFiles task name axes M T g.files⟩, .ok ()) ∧
      ShowsArray cs 50 samples mu sd axes ∧ ShowsMatrices cs 50 samples2 mu sd M T := by
  obtain ⟨w, h, axes, -, a1, a2, a3, a4, a5⟩ := C94_array hwf hcs hne hp (perAxis := 50) (by norm_num) ha
  obtain ⟨M, T, m1, m2, m3, m4⟩ := C94_matrix hwf hcs hne hp (perAxis := 50) (by norm_num) hm
  refine ⟨axes, M, T, ?_, ⟨by rw [a2]; exact a3, a4, by rw [a2]; exact a5⟩, m2, m3, m4⟩
  unfold benchmarkArrays showMatrix
  rw [Show.changed_bind a1, Show.bind_ok (p := Show.save _ _) rfl, Show.changed_bind (by rw [m1])]
  dsimp only
  rw [Show.bind_ok (p := Show.save _ _) rfl]
  rfl

/-- the values of a numerical hyperparameter in legal configurations -/
theorem readsAs_legal {cs : ConfigSpace ℝ} {p : Hp ℝ} (hp : p ∈ cs) {l u : ℝ} {g : Bool} (hk : p.kind = .float l u g ∨ p.kind = .integer l u g)
    (hwf : cs.WF) {cfgs : List (Config ℝ)} (hl : ∀ c ∈ cfgs, LegalConfig cs c) : ∃ xs, ReadsAs p.name cfgs xs ∧ ∀ x ∈ xs, l ≤ x ∧ x ≤ u := by
  induction cfgs with
  | nil => exact ⟨[], .nil, by simp⟩
  | cons c cfgs ih =>
    obtain ⟨xs, hxs, hb⟩ := ih fun c hc => hl c (by simp [hc])
    obtain ⟨-, hn, -, h2⟩ := hl c (by simp)
    obtain ⟨v, hv, hleg⟩ := h2 p hp
    have hget : c.get? p.name = some v := by
      have hnd : (c.values.map Prod.fst).Nodup := by rw [hn]; exact hwf
      exact get?_of_mem hnd hv c.vector
    obtain ⟨x, rfl, h3, h4⟩ : ∃ x, v = .num x ∧ l ≤ x ∧ x ≤ u := by
      rcases hk with hk | hk <;> cases v <;> simp_all [Hp.legal]
    exact ⟨x :: xs, .cons hget hxs, by simpa using ⟨⟨h3, h4⟩, hb⟩⟩

/-- a mesh over two hyperparameters: `n` evenly spaced values of each (in natural units) and the values of `h` at all their combinations -/
def MeshOf (l u : ℝ) (g : Bool) (l' u' : ℝ) (g' : Bool) (n : Nat) (h : List ℝ → ℝ) (shape : Shape ℝ) : Prop :=
  ∃ xs ys z, shape = .mesh xs ys z ∧ xs.length = n ∧ ys.length = n ∧ Shape2 n n z ∧
    (∀ i < n, xs[i]? = some (interpolate l u g (gridValue n i)) ∧ ys[i]? = some (interpolate l' u' g' (gridValue n i))) ∧
    ∀ i < n, ∀ j < n, at2 z j i = some (h [gridValue n i, gridValue n j])

/-- **C118** `rf`, any number of numerical hyperparameters: 92 evaluations of the benchmark, a Gaussian process fitted to exactly these, and three images of its
predictions, averaged over the samples drawn for each axis. -/
theorem C118_rf {b : Benchmark ℝ σ} {outcome : Int → Config ℝ → Py (List (String × ℝ))} (hb : b.Total outcome) {cs : ConfigSpace ℝ} (hspace : b.space (some 0) = cs)
    (hwf : cs.WF) (hcs : AllDeclared cs) (hne : cs ≠ []) (state : σ) {i : MainInput S} (hi : i.Benchmarks (benchmarkFn (hpoInit b (some 0)) state))
    {arrayDraws : Nat → Draws (Config ℝ)} {samples : Nat → List (List ℝ)} (ha : ∀ j < cs.length, UnitDraws cs (arrayDraws j) (samples j))
    {matrixDraws : Hp ℝ → Hp ℝ → Draws (Config ℝ)} {samples2 : Hp ℝ → Hp ℝ → List (List ℝ)}
    (hm : ∀ q ∈ cs, ∀ p ∈ cs, UnitDraws cs (matrixDraws q p) (samples2 q p)) (task : Int) (g0 : Gallery) :
    ∃ s gp mu sd axes M T, rfScript i (hpoInit b (some 0)) state task arrayDraws matrixDraws g0 = (⟨g0.count, arrayFiles task "rf" axes M T g0.files⟩, .ok (s, gp)) ∧
      BenchmarkRun cs i (outcome 0) s gp mu sd ∧ ShowsArray cs 50 samples mu sd axes ∧ ShowsMatrices cs 50 samples2 mu sd M T := by
  subst hspace
  obtain ⟨s, gp, mu, sd, h1, h2⟩ := benchmark_run hb hwf hne state hi g0
  obtain ⟨axes, M, T, h3, h4, h5⟩ := benchmark_arrays hwf hcs hne h2.2.2.2.2.1 ha hm task "rf" g0
  refine ⟨s, gp, mu, sd, axes, M, T, ?_, h2, h4, h5⟩
  unfold rfScript
  rw [Show.bind_ok h1]
  dsimp only
  rw [show (hpoInit b (some 0)).cs = b.space (some 0) from rfl, Show.bind_ok (p := benchmarkArrays _ _ _ _ _ _) h3]
  rfl

/-- **C118** `svm` with two hyperparameters, as its benchmark has: in addition an image of the predicted means over both hyperparameters and one of the predicted standard deviations, each
with all 92 evaluated configurations. -/
theorem C118_svm {b : Benchmark ℝ σ} {outcome : Int → Config ℝ → Py (List (String × ℝ))} (hb : b.Total outcome) {p q : Hp ℝ} (hspace : b.space (some 0) = [p, q])
    (hpq : p.name ≠ q.name) {l u : ℝ} {g : Bool} (hvp : ValidNumerical p l u g) {l' u' : ℝ} {g' : Bool} (hvq : ValidNumerical q l' u' g') (state : σ)
    {i : MainInput S} (hi : i.Benchmarks (benchmarkFn (hpoInit b (some 0)) state)) (argsort : List ℝ → List Nat)
    {arrayDraws : Nat → Draws (Config ℝ)} {samples : Nat → List (List ℝ)} (ha : ∀ j < 2, UnitDraws [p, q] (arrayDraws j) (samples j))
    {matrixDraws : Hp ℝ → Hp ℝ → Draws (Config ℝ)} {samples2 : Hp ℝ → Hp ℝ → List (List ℝ)}
    (hm : ∀ x ∈ [p, q], ∀ y ∈ [p, q], UnitDraws [p, q] (matrixDraws x y) (samples2 x y)) (task : Int) (g0 : Gallery) :
    ∃ s gp mu sd axMean axStd axes M T xs ys mesh mesh',
      svmScript i argsort (hpoInit b (some 0)) state task arrayDraws matrixDraws g0 =
        (⟨g0.count, arrayFiles task "svm" axes M T (saveFig (saveFig g0.files (toString task ++ "_svm_mean") [axMean]) (toString task ++ "_svm_confidence") [axStd])⟩,
          .ok (s, gp)) ∧
      BenchmarkRun [p, q] i (outcome 0) s gp mu sd ∧
      ReadsAs p.name s.configs xs ∧ ReadsAs q.name s.configs ys ∧ (∀ x ∈ xs, l ≤ x ∧ x ≤ u) ∧ (∀ y ∈ ys, l' ≤ y ∧ y ≤ u') ∧
      AxisTwo p q l u g l' u' g' axMean [mesh, .points "red" xs ys] ∧ MeshOf l u g l' u' g' 100 mu mesh ∧
      AxisTwo p q l u g l' u' g' axStd [mesh', .points "red" xs ys] ∧ MeshOf l u g l' u' g' 100 sd mesh' ∧
      ShowsArray [p, q] 50 samples mu sd axes ∧ ShowsMatrices [p, q] 50 samples2 mu sd M T := by
  have hwf : ConfigSpace.WF ([p, q] : ConfigSpace ℝ) := by simpa [ConfigSpace.WF] using hpq
  have hcs : AllDeclared [p, q] := by
    intro h hmem
    rcases List.mem_cons.1 hmem with rfl | hmem
    · exact ⟨l, u, g, hwf, ⟨h, by simp, rfl, hvp.1⟩, hvp.2.1, hvp.2.2⟩
    · obtain rfl := List.mem_singleton.1 hmem
      exact ⟨l', u', g', hwf, ⟨h, by simp, rfl, hvq.1⟩, hvq.2.1, hvq.2.2⟩
  obtain ⟨s, gp, mu, sd, h1, h2⟩ := benchmark_run hb (by rw [hspace]; exact hwf) (by rw [hspace]; simp) state hi g0
  rw [hspace] at h2
  have hrow := h2.2.2.2.2.1
  obtain ⟨xs, hxs, hxb⟩ := readsAs_legal (p := p) (by simp) hvp.1 hwf h2.2.1
  obtain ⟨ys, hys, hyb⟩ := readsAs_legal (p := q) (by simp) hvq.1 hwf h2.2.1
  have hne : s.configs ≠ [] := by intro h; have := h2.1; rw [h] at this; simp at this
  have hax := newAxis_two hvp.1 hvq.1 "Prediction"
  obtain ⟨mx, my, mz, p1, p2, p3, p4, p5, p6⟩ := C85_means_two hvp hvq hrow (n := 100) (by norm_num) "blue" hax
  obtain ⟨nx, ny, nz, q1, q2, q3, q4, q5, q6⟩ := C85_confidences_two hvp hvq hrow (n := 100) (by norm_num) "blue" "lightblue" hax
  have d1 := C86_two argsort (cs := [p, q]) (sel := .none) rfl (s := s) hne hxs hys "red" (axis_again hax [.mesh mx my mz])
  have d2 := C86_two argsort (cs := [p, q]) (sel := .none) rfl (s := s) hne hxs hys "red" (axis_again hax [.mesh nx ny nz])
  obtain ⟨axes, M, T, h3, h4, h5⟩ := benchmark_arrays hwf hcs (by simp) hrow ha hm task "svm" ⟨g0.count, saveFig (saveFig g0.files (toString task ++ "_svm_mean")
    [_]) (toString task ++ "_svm_confidence") [_]⟩
  refine ⟨s, gp, mu, sd, _, _, axes, M, T, xs, ys, .mesh mx my mz, .mesh nx ny nz, ?_, h2, hxs, hys, hxb, hyb, rfl, ⟨mx, my, mz, rfl, p2, p3, p4, p5, p6⟩, rfl,
    ⟨nx, ny, nz, rfl, q2, q3, q4, q5, q6⟩, h4, h5⟩
  unfold svmScript
  rw [Show.bind_ok h1]
  dsimp only
  have hfc : (hpoInit b (some 0)).cs = [p, q] := hspace
  rw [hfc, Show.on_bind p1, Show.on_bind d1, Show.bind_ok (p := Show.save _ _) rfl, Show.on_bind q1, Show.on_bind d2, Show.bind_ok (p := Show.save _ _) rfl,
    Show.bind_ok (p := benchmarkArrays _ _ _ _ _ _) h3]
  rfl

/-- **C118** `svm` with three or more hyperparameters: after all evaluations an AssertionError, no image is saved. -/
theorem C118_svm_many {b : Benchmark ℝ σ} {outcome : Int → Config ℝ → Py (List (String × ℝ))} (hb : b.Total outcome) (hwf : (b.space (some 0)).WF)
    (hl : 3 ≤ (b.space (some 0)).length) (state : σ) {i : MainInput S} (hi : i.Benchmarks (benchmarkFn (hpoInit b (some 0)) state)) (argsort : List ℝ → List Nat)
    (arrayDraws : Nat → Draws (Config ℝ)) (matrixDraws : Hp ℝ → Hp ℝ → Draws (Config ℝ)) (task : Int) (g0 : Gallery) :
    svmScript i argsort (hpoInit b (some 0)) state task arrayDraws matrixDraws g0 = (g0, .error .assertion) := by
  obtain ⟨s, gp, mu, sd, h1, -⟩ := benchmark_run hb hwf (by rintro h; rw [h] at hl; simp at hl) state hi g0
  unfold svmScript
  rw [Show.bind_ok h1]
  dsimp only
  have := (C85_many (cs := (hpoInit b (some 0)).cs) hl gp.predict 100 Ax.new).1 "blue"
  exact Show.bind_error (by unfold Show.on Show.changed; rw [this])

/-- **C118** Without a cache file: the scripts count 12 initial points, but from the sixth on every evaluated configuration is chosen: among 100 candidates it minimises the predicted mean minus the
predicted standard deviation of a Gaussian process fitted to the configurations before. -/
theorem C118_initial {cs : ConfigSpace ℝ} {i : MainInput S} {outcome : Config ℝ → Py (List (String × ℝ))} {s : BOState (Config ℝ) ℝ GpSurrogate S} {gp : GpSurrogate}
    {mu sd : List ℝ → ℝ} (h : BenchmarkRun cs i outcome s gp mu sd) (hno : loadCache i.ofVec i.file = []) :
    s.configs.take 5 = (i.drawer.draw i.rng 5).1 ∧
    ∀ j, 5 ≤ j → j < 92 → ∃ c gp' mu' sd' r, s.configs[j]? = some c ∧ GpSurrogate.new.fit i.choose ((s.configs.take j).map Config.vector) (s.ys.take j) = (gp', .ok ()) ∧
      RowWise cs.length gp'.predict mu' sd' ∧ c ∈ (i.acqDrawer.draw r 100).1 ∧
      ∀ q ∈ (i.acqDrawer.draw r 100).1, mu' c.vector - sd' c.vector ≤ mu' q.vector - sd' q.vector := by
  obtain ⟨hlen, -, -, -, -, -, hopt⟩ := h
  obtain ⟨h1, h2⟩ := hopt hno
  refine ⟨by rw [hlen] at h1; exact h1, fun j hj hj' => ?_⟩
  obtain ⟨c, hc⟩ : ∃ c, s.configs[j]? = some c := ⟨_, List.getElem?_eq_getElem (by omega)⟩
  obtain ⟨gp', mu', sd', eta, r, g1, g2, -, -, -, k, g3, g4, -⟩ := h2 j c hj hc
  refine ⟨c, gp', mu', sd', r, hc, g1, g2, List.mem_of_getElem? g3, fun q hq => ?_⟩
  have := g4 q hq
  simp only [acqMeaning, if_true, not_lt] at this
  linarith

/-! ### A concrete case: a benchmark with a log-scaled and an integer hyperparameter, without a cache file -/

noncomputable def flatBenchmark : Benchmark ℝ Nat where
  space _ := [⟨"C", .float 1 1024 true⟩, ⟨"depth", .integer 1 50 false⟩]
  objective _ rng n := match rng with
    | some z => (n, .ok [("cost", 1), ("function_value", z)])
    | none => (n + 1, .ok [("cost", 1), ("function_value", n)])

noncomputable def flatPoint : Config ℝ := ⟨[0, 0], [("C", .num 1), ("depth", .num 1)]⟩

noncomputable def flatInput : MainInput Unit where
  order := id
  choose _ _ := matern 1
  inv _ _ := 0
  drawer := ⟨fun _ n => (List.replicate n flatPoint, ()), by simp⟩
  acqDrawer := ⟨fun _ n => (List.replicate n flatPoint, ()), by simp⟩
  rng := ()
  ofVec _ := .error .value
  file := .absent
  iceDraws := .many []

example : ∃ s gp g s' gp' g',
    svmScript flatInput (fun _ => []) (hpoInit flatBenchmark (some 0)) 7 2079 (fun _ => .many [flatPoint]) (fun _ _ => .many [flatPoint]) ⟨0, []⟩ = (g, .ok (s, gp)) ∧
    g.files.map Prod.fst = ["2079_svm_mean", "2079_svm_confidence", "2079_svm_hyperparameters_1D", "2079_svm_hyperparameters_2D_mean", "2079_svm_hyperparameters_2D_std"] ∧
    s.configs.length = 92 ∧ (∀ c ∈ s.configs, c = flatPoint) ∧ (∀ y ∈ s.ys, y = 0) ∧
    rfScript flatInput (hpoInit flatBenchmark (some 0)) 7 2079 (fun _ => .many [flatPoint]) (fun _ _ => .many [flatPoint]) ⟨0, []⟩ = (g', .ok (s', gp')) ∧
    g'.files.map Prod.fst = ["2079_rf_hyperparameters_1D", "2079_rf_hyperparameters_2D_mean", "2079_rf_hyperparameters_2D_std"] := by
  have htot : flatBenchmark.Total (fun z _ => .ok [("cost", 1), ("function_value", z)]) := ⟨fun _ _ _ => rfl, fun _ _ => ⟨_, 0, rfl, by simp, by simp⟩⟩
  have hlegal : LegalConfig (flatBenchmark.space (some 0)) flatPoint := by
    refine ⟨rfl, rfl, ?_, ?_⟩
    · intro p hp
      simp only [flatPoint, List.mem_cons, List.not_mem_nil, or_false] at hp
      rcases hp with rfl | rfl
      · exact ⟨⟨"C", .float 1 1024 true⟩, by simp [flatBenchmark], rfl⟩
      · exact ⟨⟨"depth", .integer 1 50 false⟩, by simp [flatBenchmark], rfl⟩
    · intro hp hm
      simp only [flatBenchmark, List.mem_cons, List.not_mem_nil, or_false] at hm
      rcases hm with rfl | rfl
      · exact ⟨.num 1, by simp [flatPoint], by simp [Hp.legal]⟩
      · exact ⟨.num 1, by simp [flatPoint], by simp [Hp.legal]⟩
  have hi : flatInput.Benchmarks (benchmarkFn (hpoInit flatBenchmark (some 0)) 7) := by
    refine ⟨fun _ _ => matern_unit one_pos _, fun s n c hc => ?_, fun s n c hc => ?_, by simp [flatInput, loadCache]⟩ <;>
    · obtain rfl : c = flatPoint := List.eq_of_mem_replicate hc
      exact hlegal
  have hvp : ValidNumerical ⟨"C", .float 1 1024 true⟩ 1 1024 true := ⟨.inl rfl, by norm_num, by norm_num⟩
  have hvq : ValidNumerical ⟨"depth", .integer 1 50 false⟩ 1 50 false := ⟨.inr rfl, by norm_num, by norm_num⟩
  have hud : UnitDraws (flatBenchmark.space (some 0)) (.many [flatPoint]) [[0, 0]] :=
    ⟨[flatPoint], rfl, rfl, by simp, fun r hr => by rw [List.mem_singleton.1 hr]; exact ⟨rfl, by simp⟩⟩
  have hwf : (flatBenchmark.space (some 0)).WF := by simp [ConfigSpace.WF, flatBenchmark]
  have hcs : AllDeclared (flatBenchmark.space (some 0)) := by
    intro h hm
    simp only [flatBenchmark, List.mem_cons, List.not_mem_nil, or_false] at hm
    rcases hm with rfl | rfl
    · exact ⟨1, 1024, true, hwf, ⟨_, by simp [flatBenchmark], rfl, .inl rfl⟩, by norm_num, by norm_num⟩
    · exact ⟨1, 50, false, hwf, ⟨_, by simp [flatBenchmark], rfl, .inr rfl⟩, by norm_num, by norm_num⟩
  obtain ⟨s, gp, mu, sd, a1, a2, axes, M, T, xs, ys, m1, m2, h1, h2, -⟩ := C118_svm htot rfl (by simp) hvp hvq 7 hi (fun _ => []) (arrayDraws := fun _ => .many [flatPoint])
    (samples := fun _ => [[0, 0]]) (fun _ _ => hud) (matrixDraws := fun _ _ => .many [flatPoint]) (samples2 := fun _ _ => [[0, 0]]) (fun _ _ _ _ => hud) 2079 ⟨0, []⟩
  obtain ⟨s', gp', mu', sd', axes', M', T', h3, -⟩ := C118_rf htot rfl hwf hcs (by simp [flatBenchmark]) 7 hi (arrayDraws := fun _ => .many [flatPoint])
    (samples := fun _ => [[0, 0]]) (fun _ _ => hud) (matrixDraws := fun _ _ => .many [flatPoint]) (samples2 := fun _ _ => [[0, 0]]) (fun _ _ _ _ => hud) 2079 ⟨0, []⟩
  have hn : (2079 : Int).repr = "2079" := by decide +kernel
  refine ⟨s, gp, _, s', gp', _, h1, by simp [arrayFiles, saveFig, hn], h2.1, fun c hc => ?_, fun y hy => ?_, h3, by simp [arrayFiles, saveFig, hn]⟩
  · obtain ⟨h4, h5⟩ := C118_initial h2 rfl
    obtain ⟨j, hj⟩ := List.mem_iff_getElem?.1 hc
    by_cases hj5 : j < 5
    · have : (s.configs.take 5)[j]? = some c := by rw [List.getElem?_take_of_lt hj5]; exact hj
      rw [h4] at this
      exact List.eq_of_mem_replicate (List.mem_of_getElem? this)
    · obtain ⟨c', _, _, _, r, e1, -, -, e2, -⟩ := h5 j (by omega) (by have := (List.getElem?_eq_some_iff.1 hj).1; have := h2.1; omega)
      rw [hj] at e1
      cases e1
      exact List.eq_of_mem_replicate e2
  · obtain ⟨c, -, config, d, -, -, e1, e2⟩ := forall₂_mem_right h2.2.2.1 hy
    cases e1
    simpa using e2

end PyPDP
