/-
Which points the example scripts evaluate: C102, C104, C105, C106, C114, C115.
-/
import Verif.Props.Main2D
import Verif.Props.MainForest
import Verif.Props.BadNll
import Verif.Props.MainMeta

namespace PyPDP
open Spec
variable {S : Type}

/-- **C102** Without a cache file: the first `4 d` points that examples/main.py evaluates are random, every later one maximises the acquisition function among its candidates, as computed from a
Gaussian process fitted to exactly the points before. -/
theorem C102_points {i : MainInput S} {d : Nat} (hd : 2 ≤ d) {f : BlackboxFn ℝ}
    (hf : forNDimensions i.order (-5) 5 false styblinskiTangValue (d : ℝ) none none = .ok f) (hi : i.Good f.cs) (hcache : loadCache i.ofVec i.file = []) {name : String}
    {kind : AcqKind} {nCandidates : Int} (hn : 2 ≤ nCandidates) {perAxis numSplits minPoints : Nat} {depth : Int} {res : MainResult S}
    (h : mainScript i d name kind nCandidates perAxis numSplits minPoints depth = .ok res) :
    OptimisedBy d i kind (4 * d) nCandidates.toNat res.sampler.configs res.sampler.ys := by
  unfold mainScript at h
  rw [hf, Py.ok_bind] at h
  obtain ⟨hp, -, h⟩ := Py.bind_eq_ok.1 h
  obtain ⟨⟨env, m⟩, henv, h⟩ := Py.bind_eq_ok.1 h
  dsimp only at h
  split at h
  · cases h
  · next s hs =>
    have hp := points_optimised hi.order (by omega) hf hi hcache hn (initial := 4 * d) (n := 32 * d - 20) (by omega) (by omega) (by push_cast; ring) (by omega) henv hs
    suffices e : res.sampler = s by rw [e]; exact hp
    repeat' first
      | (obtain ⟨_, -, h⟩ := Py.bind_eq_ok.1 h)
      | (split at h; · cases h)
    cases h
    rfl

/-- **C104** Without a cache file: the first `initial` points that examples/main_random_forest.py evaluates are random, the later ones maximise the acquisition function. -/
theorem C104_points {i : MainInput S} {d : Nat} (hd : 2 ≤ d) {f : BlackboxFn ℝ}
    (hf : forNDimensions i.order (-5) 5 false styblinskiTangValue (d : ℝ) none none = .ok f) (hi : i.Good f.cs) (hcache : loadCache i.ofVec i.file = [])
    {ofVector : List ℝ → Config ℝ} {calls : List (Int × (Nat → ForestDraw))} {name : String} {kind : AcqKind} {initial n : Nat} (hini : 1 ≤ initial) (hn1 : 1 ≤ n)
    {nCandidates : Int} (hn : 2 ≤ nCandidates) {perAxis : Nat} {size depth : Int} {res : ForestResult S}
    (h : forestScript i ofVector calls d name kind initial n nCandidates perAxis size depth = .ok res) :
    OptimisedBy d i kind initial nCandidates.toNat res.sampler.configs res.sampler.ys := by
  unfold forestScript at h
  rw [hf, Py.ok_bind] at h
  obtain ⟨⟨env, m⟩, henv, h⟩ := Py.bind_eq_ok.1 h
  dsimp only at h
  split at h
  · cases h
  · next s hs =>
    have hp := points_optimised hi.order (by omega) hf hi hcache hn hini hn1 rfl rfl henv hs
    suffices e : res.sampler = s by rw [e]; exact hp
    repeat' first
      | (obtain ⟨_, -, h⟩ := Py.bind_eq_ok.1 h)
      | (split at h; · cases h)
    cases h
    rfl

theorem initialPoints_eq {choose : List (List ℝ) → List ℝ → Kernel} {kind : AcqKind} {initial : Int} {names : List String} {dr acq : Drawer (Config ℝ) S} {nCandidates : Int}
    {env : BOEnv (Config ℝ) ℝ GpSurrogate S} {m : GpSurrogate} (h : gpSampler choose kind true initial names dr acq nCandidates = .ok (env, m)) : env.initialPoints = initial := by
  rw [gpSampler_ok choose (.inl rfl)] at h
  obtain ⟨rfl, -⟩ := Prod.mk.inj (Except.ok.inj h)
  rfl

/-- **C105** Without a cache file: the first `4 d` points of a replication for the table of the paper are random, the `n` others maximise the acquisition function. -/
theorem C105_points {i : MainInput S} {uniform : Int → List (Config ℝ)} {d : Nat} (hd : 2 ≤ d) {f : BlackboxFn ℝ}
    (hf : forNDimensions i.order (-5) 5 false styblinskiTangValue (d : ℝ) none none = .ok f) (hi : i.Good f.cs) (hcache : loadCache i.ofVec i.file = [])
    {name : String} {kind : AcqKind} {n : Nat} {nCandidates : Int} (hn : 2 ≤ nCandidates) {perAxis numSplits minPoints : Nat} {splits : List Int} {res : PaperResult S}
    (h : paperScript i uniform d name kind n nCandidates perAxis numSplits minPoints splits = .ok res) :
    OptimisedBy d i kind (4 * d) nCandidates.toNat res.sampler.configs res.sampler.ys := by
  unfold paperScript at h
  rw [hf, Py.ok_bind] at h
  obtain ⟨⟨env, m⟩, henv, h⟩ := Py.bind_eq_ok.1 h
  have hini := initialPoints_eq henv
  dsimp only at h
  split at h
  · cases h
  · next s hs =>
    have hp := points_optimised hi.order (by omega) hf hi hcache hn (initial := 4 * d) (n := n + 4 * d) (by omega) (by omega) (by push_cast; ring) (by rw [hini]; push_cast; ring) henv hs
    suffices e : res.sampler = s by rw [e]; exact hp
    repeat' first
      | (obtain ⟨_, -, h⟩ := Py.bind_eq_ok.1 h)
      | (split at h; · cases h)
    cases h
    rfl

/-- **C106** Without a cache file: the first `4 d` points that examples/main_2d_pdp.py evaluates are random, the `n` others maximise the acquisition function. -/
theorem C106_points {i : MainInput S} {argsort : List ℝ → List Nat} {d : Nat} (hd : 2 ≤ d) {f : BlackboxFn ℝ}
    (hf : forNDimensions i.order (-5) 5 false styblinskiTangValue (d : ℝ) none none = .ok f) (hi : i.Good f.cs) (hcache : loadCache i.ofVec i.file = [])
    {name1 name2 : String} {kind : AcqKind} {n : Nat} {nCandidates : Int} (hn : 2 ≤ nCandidates) {perAxis numSplits minPoints : Nat} {depth : Int} {res : TwoDimResult S}
    (h : twoDimScript i argsort d name1 name2 kind n nCandidates perAxis numSplits minPoints depth = .ok res) :
    OptimisedBy d i kind (4 * d) nCandidates.toNat res.sampler.configs res.sampler.ys := by
  unfold twoDimScript at h
  rw [hf, Py.ok_bind] at h
  obtain ⟨⟨env, m⟩, henv, h⟩ := Py.bind_eq_ok.1 h
  dsimp only at h
  split at h
  · cases h
  · next s hs =>
    have hp := points_optimised hi.order (by omega) hf hi hcache hn (initial := 4 * d) (n := n + 4 * d) (by omega) (by omega) (by push_cast; ring) (by push_cast; ring) henv hs
    suffices e : res.sampler = s by rw [e]; exact hp
    repeat' first
      | (obtain ⟨_, -, h⟩ := Py.bind_eq_ok.1 h)
      | (split at h; · cases h)
    cases h
    rfl

/-- **C114** Without a cache file: the first `4 d` points of a replication of `visualize_bad_nll` are random, the `n` others maximise the acquisition function. -/
theorem C114_points {i : MainInput S} {d : Nat} (hd : 2 ≤ d) {f : BlackboxFn ℝ}
    (hf : forNDimensions i.order (-5) 5 false styblinskiTangValue (d : ℝ) none none = .ok f) (hi : i.Good f.cs) (hcache : loadCache i.ofVec i.file = [])
    {kind : AcqKind} {n : Nat} {nCandidates : Int} (hn : 2 ≤ nCandidates) {perAxis numSplits minPoints : Nat} {depth : Int} {res : BadRun S}
    (h : badReplication d kind n nCandidates perAxis numSplits minPoints depth i = .ok res) :
    OptimisedBy d i kind (4 * d) nCandidates.toNat res.sampler.configs res.sampler.ys := by
  unfold badReplication at h
  rw [hf, Py.ok_bind] at h
  obtain ⟨⟨env, m⟩, henv, h⟩ := Py.bind_eq_ok.1 h
  dsimp only at h
  split at h
  · cases h
  · next s hs =>
    have hp := points_optimised hi.order (by omega) hf hi hcache hn (initial := 4 * d) (n := n + 4 * d) (by omega) (by omega) (by push_cast; ring) (by push_cast; ring) henv hs
    suffices e : res.sampler = s by rw [e]; exact hp
    repeat' first
      | (obtain ⟨_, -, h⟩ := Py.bind_eq_ok.1 h)
      | (split at h; · cases h)
    cases h
    rfl

/-- **C115** Without a cache file: the first `4 d` points of a repetition of `blackbox_function` are random, the `34 d - 20` others maximise the acquisition function. -/
theorem C115_points {i : MainInput S} {order : SpaceOrder ℝ} (hord : ∀ l, (order l).Perm l) {d : Nat} (hd : 1 ≤ d) {f : BlackboxFn ℝ}
    (hf : forNDimensions order (-5) 5 false styblinskiTangValue (d : ℝ) none none = .ok f) (hi : i.Good f.cs) (hcache : loadCache i.ofVec i.file = [])
    {kind : AcqKind} {nCandidates : Int} (hn : 2 ≤ nCandidates) {perAxis numSplits minPoints : Nat} {nSplits : Int} {res : MetaRun S}
    (h : metaRepetition i f d kind nCandidates perAxis numSplits minPoints nSplits = .ok res) :
    OptimisedBy d i kind (4 * d) nCandidates.toNat res.sampler.configs res.sampler.ys := by
  unfold metaRepetition at h
  obtain ⟨⟨env, m⟩, henv, h⟩ := Py.bind_eq_ok.1 h
  have hini := initialPoints_eq henv
  dsimp only at h
  split at h
  · cases h
  · next s hs =>
    have hp := points_optimised hord hd hf hi hcache hn (initial := 4 * d) (n := 38 * d - 20) (by omega) (by omega) (by push_cast; ring) (by rw [hini]; omega) henv hs
    suffices e : res.sampler = s by rw [e]; exact hp
    repeat' first
      | (obtain ⟨_, -, h⟩ := Py.bind_eq_ok.1 h)
      | (split at h; · cases h)
    cases h
    rfl

/-- the script with its values and a generator that always draws the middle of the cube: 12 random points, then 64 whose lower confidence bound is not above that of any candidate,
for predictions with a positive standard deviation -/
example : ∃ (i : MainInput Unit) (res : MainResult Unit), mainScript i 3 "x1" (.lcb 1) 100 20 100 10 2 = .ok res ∧
    res.sampler.configs.take 12 = (i.drawer.draw () 12).1 ∧
    ∀ j, 12 ≤ j → j < 76 → ∃ (c : Config ℝ) (mu sd : List ℝ → ℝ), res.sampler.configs[j]? = some c ∧ c ∈ (i.acqDrawer.draw () 100).1 ∧ (∀ v : List ℝ, v.length = 3 → 0 < sd v) ∧
      ∀ q ∈ (i.acqDrawer.draw () 100).1, mu c.vector - 1 * sd c.vector ≤ mu q.vector - 1 * sd q.vector := by
  obtain ⟨cs, hf, hs, -⟩ := stSpace_ok (order := id) (fun l => List.Perm.refl l) 3
  obtain ⟨dr, hdr⟩ : ∃ dr : Drawer (Config ℝ) Unit, dr = ⟨fun _ n => (List.replicate n (midConfig cs), ()), by simp⟩ := ⟨_, rfl⟩
  have hdrawn : ∀ s n, ∀ c ∈ (dr.draw s n).1, DrawnFrom cs c := by
    intro s n c hc
    rw [hdr] at hc
    rw [List.eq_of_mem_replicate hc]
    exact midConfig_drawn hs
  obtain ⟨i, hi⟩ : ∃ i : MainInput Unit, i = ⟨id, fun _ _ => matern 1, fun _ _ => 0, dr, dr, (), fun _ => .error .value, .absent, .many (List.replicate 1000 (midConfig cs))⟩ := ⟨_, rfl⟩
  have hgood : i.Good cs := by
    rw [hi]
    exact ⟨fun l => List.Perm.refl l, fun _ _ => matern_unit one_pos _, hdrawn, hdrawn, by simp [loadCache],
      ⟨_, rfl, List.ne_nil_of_length_pos (by rw [List.length_replicate]; norm_num), fun c hc => by rw [List.eq_of_mem_replicate hc]; exact midConfig_drawn hs⟩⟩
  have hf' : forNDimensions i.order (-5) 5 false styblinskiTangValue ((3 : Nat) : ℝ) none none = .ok ⟨cs, styblinskiTangValue cs⟩ := by rw [hi]; exact hf
  obtain ⟨res, hp, part, δ, h1, -, h2, -⟩ := C102_main (S := Unit) (d := 3) (by norm_num) hf' hgood (k := 1) le_rfl (by norm_num) (.lcb 1)
    (nCandidates := 100) (by norm_num) (perAxis := 20) (by norm_num) 100 (minPoints := 10) (by norm_num) (depth := 2) (by norm_num)
  have hlen : res.sampler.configs.length = 76 := h2
  obtain ⟨p1, p2⟩ := C102_points (by norm_num) hf' hgood (by rw [hi]; rfl) (by norm_num) h1
  refine ⟨i, res, h1, ?_, fun j hj hj' => ?_⟩
  · rw [hlen] at p1
    exact p1
  · obtain ⟨gp, mu, sd, eta, r, -, -, q1, -, -, q2⟩ := p2 j res.sampler.configs[j] hj (List.getElem?_eq_getElem (by omega))
    obtain ⟨k, q3, q4, -⟩ := q2
    refine ⟨_, mu, sd, List.getElem?_eq_getElem (by omega), List.mem_of_getElem? q3, q1, fun q hq => ?_⟩
    have := q4 q hq
    simp only [acqMeaning, if_true] at this
    linarith

end PyPDP
