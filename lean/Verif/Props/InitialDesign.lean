/-
C77: exactly how many points of a Bayesian optimisation sampler come from the random initial design, for every way of dividing the points over calls.
-/
import Verif.Props.Bayes

namespace PyPDP
open Spec
variable {C K M S : Type}

/-- `l` consists of designs drawn from the space, one after the other. -/
def Spec.DrawnParts (d : Drawer C S) : List Nat → List C → Prop
  | [], l => l = []
  | k :: ks, l => ∃ r rest, l = (d.draw r k).1 ++ rest ∧ DrawnParts d ks rest

theorem drawnParts_append {d : Drawer C S} {ks ks' : List Nat} {l l' : List C} (h : DrawnParts d ks l) (h' : DrawnParts d ks' l') :
    DrawnParts d (ks ++ ks') (l ++ l') := by
  induction ks generalizing l with
  | nil =>
    have : l = [] := h
    subst this
    simpa using h'
  | cons k ks ih =>
    obtain ⟨r, rest, rfl, hr⟩ := h
    exact ⟨r, rest ++ l', by simp, ih hr⟩

/-- the number of random points drawn by the calls, from `T` points on -/
def designCount (ip : Nat) : Nat → List Nat → Nat
  | _, [] => 0
  | T, n :: ns => (if T < ip then min ip n else 0) + designCount ip (T + n) ns

theorem designCount_full {ip T : Nat} (h : ip ≤ T) (ns : List Nat) : designCount ip T ns = 0 := by
  induction ns generalizing T with
  | nil => rfl
  | cons n ns ih => rw [designCount, if_neg (by omega), ih (by omega)]

theorem designCount_plain {ip T : Nat} (hT : T ≤ ip) (ns : List Nat)
    (h : ∀ pre n post, ns = pre ++ n :: post → ¬ (0 < T + pre.sum ∧ T + pre.sum < ip ∧ ip < T + pre.sum + n)) :
    T + designCount ip T ns = min ip (T + ns.sum) := by
  induction ns generalizing T with
  | nil => simp [designCount]; omega
  | cons n ns ih =>
    rw [designCount, List.sum_cons]
    by_cases hlt : T < ip
    · rw [if_pos hlt]
      by_cases hle : T + n ≤ ip
      · have := ih hle fun pre m post e => by
          have := h (n :: pre) m post (by rw [e]; rfl)
          rw [List.sum_cons] at this
          omega
        omega
      · have h0 := h [] n ns rfl
        simp only [List.sum_nil] at h0
        rw [designCount_full (by omega)]
        omega
    · rw [if_neg hlt, designCount_full (by omega)]
      omega

theorem designCount_cross {ip T : Nat} (pre : List Nat) (n : Nat) (post : List Nat) (h1 : T + pre.sum < ip) (h2 : ip < T + pre.sum + n) :
    T + designCount ip T (pre ++ n :: post) = T + pre.sum + min ip n := by
  induction pre generalizing T with
  | nil =>
    simp only [List.sum_nil, Nat.add_zero] at h1 h2 ⊢
    rw [List.nil_append, designCount, if_pos h1, designCount_full (by omega)]
    omega
  | cons p ps ih =>
    rw [List.sum_cons] at h1 h2 ⊢
    rw [List.cons_append, designCount, if_pos (by omega)]
    have := ih (T := T + p) (by omega) (by omega)
    omega

theorem acquiredSeq_append [LinearOrder K] {f : C → K} {env : BOEnv C K M S} {cs : List C} {ys : List K} {a b : List C}
    (ha : AcquiredSeq f env cs ys a) (hb : AcquiredSeq f env (cs ++ a) (ys ++ a.map f) b) : AcquiredSeq f env cs ys (a ++ b) := by
  induction a generalizing cs ys with
  | nil => simpa using hb
  | cons c a ih =>
    refine ⟨ha.1, ih ha.2 ?_⟩
    simpa using hb

theorem design_run [LinearOrder K] (o : Objective C K) (env : BOEnv C K M S) {ip : Nat} (hip : env.initialPoints = ip) (calls : List Nat) :
    ∀ (s : BOState C K M S) (init acq : List C) (ks : List Nat), BOInv s → s.cache = [] → s.configs = init ++ acq →
      s.ys = (init ++ acq).map o.value → DrawnParts env.drawer ks init → AcquiredSeq o.value env init (init.map o.value) acq →
      (s.configs.length < ip → acq = []) →
      (∀ e ∈ (srun (boSample o env) s (calls.map fun n : Nat => .sample (n : Int))).2, e = none) →
      ∃ init' acq' ks', (srun (boSample o env) s (calls.map fun n : Nat => .sample (n : Int))).1.configs = init' ++ acq' ∧
        DrawnParts env.drawer ks' init' ∧ AcquiredSeq o.value env init' (init'.map o.value) acq' ∧
        init'.length = init.length + designCount ip s.configs.length calls ∧
        init'.length + acq'.length = s.configs.length + calls.sum := by
  induction calls with
  | nil =>
    intro s init acq ks _ _ hc _ hd ha _ _
    refine ⟨init, acq, ks, hc, hd, ha, rfl, ?_⟩
    rw [hc]
    simp
  | cons n calls ih =>
    intro s init acq ks hi hcache hc hy hd ha hacq he
    simp only [List.map_cons, srun, sstep] at he ⊢
    obtain ⟨hi', hcache', -⟩ := boSample_inv o env s n hi
    obtain ⟨new, more, h1, h2, h3, h4, h5⟩ := boSample_points o env s hi hcache n
    obtain ⟨s', hs'⟩ : ∃ s', s' = (boSample o env s n).1 := ⟨_, rfl⟩
    have hok : (boSample o env s n).2 = none := he _ (by simp)
    rw [← hs'] at h1 h2 hi' hcache' he ⊢
    have hnew : new = initialDesign env s.configs.length s.extra.rng n ∧ new.length + more.length = n := by
      by_cases hn : 0 < (n : Int)
      · simpa using h5 hok hn
      · have hn0 : n = 0 := by omega
        subst hn0
        have hw := sampleWith_nocache (boInner o env) s hcache 0
        rw [if_neg (by omega)] at hw
        have hcfg : s'.configs = s.configs := by
          rw [hs']
          unfold boSample
          have : ((0 : Nat) : Int) = 0 := rfl
          rw [this, hw]
          exact (fitSurrogate_fst env false s).1
        rw [hcfg, List.append_assoc] at h1
        have hnil : new ++ more = [] := by simpa using h1
        obtain ⟨rfl, rfl⟩ := List.append_eq_nil_iff.1 hnil
        refine ⟨?_, rfl⟩
        unfold initialDesign
        split
        · have := env.drawer.draw_length s.extra.rng (min env.initialPoints ((0 : Nat) : Int)).toNat
          have h0 : (min env.initialPoints ((0 : Nat) : Int)).toNat = 0 := by omega
          rw [h0] at this ⊢
          exact (List.length_eq_zero_iff.1 this).symm
        · rfl
    obtain ⟨hnew, hlen⟩ := hnew
    have hlen' : s'.configs.length = s.configs.length + n := by
      rw [h1]
      simp only [List.length_append]
      omega
    by_cases hT : s.configs.length < ip
    · have h0 := hacq hT
      subst h0
      rw [List.append_nil] at hc hy
      have hnew' : new = (env.drawer.draw s.extra.rng (min ip n)).1 := by
        rw [hnew]
        unfold initialDesign
        rw [if_pos (by rw [hip]; exact_mod_cast hT), hip]
        congr 2
        omega
      have hnlen : new.length = min ip n := by rw [hnew']; exact env.drawer.draw_length _ _
      obtain ⟨init', acq', ks', g1, g2, g3, g4, g5⟩ := ih s' (init ++ new) more (ks ++ [min ip n]) hi' (hcache' hcache)
        (by rw [h1, hc]) (by rw [h2, hy]; simp)
        (drawnParts_append hd ⟨_, [], by rw [List.append_nil]; exact hnew', rfl⟩)
        (by rw [List.map_append, ← hy, ← hc]; exact h3)
        (fun hlt => by
          rw [hlen'] at hlt
          have : more.length = 0 := by omega
          exact List.length_eq_zero_iff.1 this)
        (fun e h => he e (by simp [h]))
      refine ⟨init', acq', ks', g1, g2, g3, ?_, ?_⟩
      · rw [g4, hlen', designCount, if_pos hT, List.length_append, hnlen]
        omega
      · rw [g5, hlen', List.sum_cons]
        omega
    · have hnil : new = [] := by
        rw [hnew]
        unfold initialDesign
        rw [if_neg]
        rw [hip]
        exact_mod_cast hT
      subst hnil
      rw [List.append_nil] at h1 h3
      obtain ⟨init', acq', ks', g1, g2, g3, g4, g5⟩ := ih s' init (acq ++ more) ks hi' (hcache' hcache)
        (by rw [h1, hc, List.append_assoc]) (by rw [h2, hy]; simp) hd
        (acquiredSeq_append ha (by
          rw [← hc, ← List.map_append, ← hy]
          simpa using h3))
        (fun hlt => by omega)
        (fun e h => he e (by simp [h]))
      refine ⟨init', acq', ks', g1, g2, g3, ?_, ?_⟩
      · rw [g4, hlen', designCount, if_neg hT]
        omega
      · rw [g5, hlen', List.sum_cons]
        omega

/-- **C77**, exactly: after any successful calls of a fresh sampler without cache the points are random ones, drawn in one or more designs, followed by
acquired ones. There are `min(initial_points, n)` random ones unless a call starts with at least one but fewer than `initial_points` points and ends
with more; then it draws up to `initial_points` further ones, so that there are more than `initial_points` in total. -/
theorem C77_exact [LinearOrder K] (o : Objective C K) (env : BOEnv C K M S) {ip : Nat} (hip : env.initialPoints = ip) (r : S) (m : M) (calls : List Nat)
    {s : BOState C K M S} {es : List (Option PyErr)}
    (h : srun (boSample o env) (freshBO r m) (calls.map fun n : Nat => .sample (n : Int)) = (s, es)) (hok : ∀ e ∈ es, e = none) :
    ∃ (init acq : List C) (sizes : List Nat), s.configs = init ++ acq ∧ DrawnParts env.drawer sizes init ∧
      AcquiredSeq o.value env init (init.map o.value) acq ∧ init.length + acq.length = calls.sum ∧
      ((∀ pre n post, calls = pre ++ n :: post → ¬ (0 < pre.sum ∧ pre.sum < ip ∧ ip < pre.sum + n)) → init.length = min ip calls.sum) ∧
      ∀ pre n post, calls = pre ++ n :: post → 0 < pre.sum → pre.sum < ip → ip < pre.sum + n →
        init.length = pre.sum + min ip n ∧ ip < init.length := by
  obtain ⟨init, acq, ks, h1, h2, h3, h4, h5⟩ := design_run o env hip calls (freshBO r m) [] [] [] (freshBO_inv r m []) rfl rfl rfl rfl trivial
    (fun _ => rfl) (by rw [h]; exact hok)
  rw [h] at h1
  have h0 : (freshBO r m : BOState C K M S).configs.length = 0 := rfl
  rw [h0, List.length_nil] at h4
  rw [h0] at h5
  refine ⟨init, acq, ks, h1, h2, h3, by omega, fun hno => ?_, ?_⟩
  · have := designCount_plain (ip := ip) (T := 0) (by omega) calls (by simpa using hno)
    omega
  · rintro pre n post rfl h6 h7 h8
    have := designCount_cross (ip := ip) (T := 0) pre n post (by omega) (by omega)
    omega

/-- the calls of `C77_split_counterexample`: `sample(3); sample(4)` with five initial points draws seven -/
example : (∃ pre n post, [3, 4] = pre ++ n :: post ∧ 0 < pre.sum ∧ pre.sum < 5 ∧ 5 < pre.sum + n) ∧
    (srun (boSample plainObjective sampleEnv) (freshBO (0, 0) 0) ([3, 4].map fun n : Nat => .sample (n : Int))).2 = [none, none] :=
  ⟨⟨[3], 4, [], rfl, by decide, by decide, by decide⟩, by decide +kernel⟩

end PyPDP
