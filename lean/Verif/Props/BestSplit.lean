/-
C53: the best split.
-/
import Verif.Lemmas.Partition
import Verif.Lemmas.Linspace
import Verif.Lemmas.Arrays

namespace PyPDP
open Spec
variable {K : Type} [Field K] [LinearOrder K] [IsStrictOrderedRing K]

theorem splitVals_eq (N : Nat) : splitVals (K := K) N = (List.range N).map fun j => threshold N (j + 1) := by
  refine List.ext_getElem? fun j => ?_
  unfold splitVals
  by_cases hj : j < N
  · rw [List.getElem?_dropLast, if_pos (by simp; omega), List.getElem?_drop, linspace_getElem? _ _ (by omega) (by omega), List.getElem?_map,
      List.getElem?_range hj]
    simp only [Option.map_some, threshold]
    congr 1
    push_cast
    have : (N : K) + 2 - 1 = N + 1 := by ring
    rw [this]; ring
  · rw [List.getElem?_eq_none (by simp; omega), List.getElem?_eq_none (by simp; omega)]

theorem splitVals_range {N : Nat} {t : K} (h : t ∈ splitVals (K := K) N) : 0 < t ∧ t < 1 := by
  rw [splitVals_eq] at h
  obtain ⟨j, hj, rfl⟩ := List.mem_map.1 h
  have hj := List.mem_range.1 hj
  have h1 : (0 : K) < (N : K) + 1 := by positivity
  have h2 : ((j + 1 : Nat) : K) < (N : K) + 1 := by
    have : ((j + 1 : Nat) : K) ≤ (N : K) := by exact_mod_cast hj
    linarith
  have h3 : (0 : K) < ((j + 1 : Nat) : K) := by exact_mod_cast Nat.succ_pos j
  exact ⟨div_pos h3 h1, (div_lt_one h1).2 h2⟩

/-- position `i * N + j` of the loop is threshold `j + 1` of hyperparameter `i` -/
theorem candidates_at (possible : List (Hp K)) (N : Nat) (k : Nat) (c : Hp K × K) :
    (candidates possible N)[k]? = some c ↔ ∃ i j hp, possible[i]? = some hp ∧ j < N ∧ k = i * N + j ∧ c = (hp, threshold N (j + 1)) := by
  have hlen : ∀ r ∈ possible.map (fun hp => (splitVals (K := K) N).map fun t => (hp, t)), r.length = N := by
    intro r hr
    obtain ⟨hp, _, rfl⟩ := List.mem_map.1 hr
    simp [splitVals_eq]
  have fwd : ∀ {i j : Nat} {hp}, possible[i]? = some hp → j < N → (candidates possible N)[i * N + j]? = some (hp, threshold N (j + 1)) := by
    intro i j hp hi hj
    unfold candidates
    rw [List.flatMap_def]
    refine flatten_getElem? hlen (r := (splitVals (K := K) N).map fun t => (hp, t)) ?_ ?_
    · rw [List.getElem?_map, hi]; rfl
    · rw [List.getElem?_map, splitVals_eq, List.getElem?_map, List.getElem?_range hj]; rfl
  constructor
  · intro h
    have hk := (List.getElem?_eq_some_iff.1 h).1
    have hl : (candidates possible N).length = possible.length * N := by
      unfold candidates
      rw [List.flatMap_def, flatten_length_of hlen, List.length_map]
    rw [hl] at hk
    have hN : 0 < N := Nat.pos_of_ne_zero fun h0 => by subst h0; simp at hk
    have hi : k / N < possible.length := (Nat.div_lt_iff_lt_mul hN).2 hk
    have e : k = k / N * N + k % N := (Nat.div_add_mod' k N).symm
    refine ⟨k / N, k % N, possible[k / N], List.getElem?_eq_getElem hi, Nat.mod_lt _ hN, e, ?_⟩
    have := fwd (List.getElem?_eq_getElem hi) (Nat.mod_lt k hN)
    rw [← e, h] at this
    exact Option.some.inj this
  · rintro ⟨i, j, hp, hi, hj, rfl, rfl⟩
    exact fwd hi hj

omit [Field K] [LinearOrder K] [IsStrictOrderedRing K] in
theorem isFeature_idx {cs : ConfigSpace K} (hwf : cs.WF) {hp : Hp K} {f : Nat} : IsFeature cs hp f ↔ cs.idx hp.name = .ok f := by
  unfold ConfigSpace.idx
  constructor
  · rintro ⟨h, h1, h2⟩
    have hlt := (List.getElem?_eq_some_iff.1 h1).1
    have hg := (List.getElem?_eq_some_iff.1 h1).2
    have : cs.findIdx? (fun g => g.name == hp.name) = some f := by
      rw [List.findIdx?_eq_some_iff_getElem]
      refine ⟨hlt, by simp [hg, h2], fun j hj => ?_⟩
      simp only [beq_iff_eq]
      intro hc
      have hnd : (cs.map Hp.name).Nodup := hwf
      have := (List.Nodup.getElem_inj_iff hnd (i := j) (j := f) (hi := by simp; omega) (hj := by simp; omega)).1 (by simp [hc, hg, h2])
      omega
    rw [this]
  · intro h
    split at h
    · rename_i i hi
      obtain rfl := Except.ok.inj h
      rw [List.findIdx?_eq_some_iff_getElem] at hi
      obtain ⟨hlt, h1, _⟩ := hi
      exact ⟨cs[i], List.getElem?_eq_getElem hlt, by simpa using h1⟩
    · cases h

omit [Field K] [LinearOrder K] [IsStrictOrderedRing K] in
theorem idx_of_mem {cs : ConfigSpace K} {hp : Hp K} (h : hp ∈ cs) : ∃ f, cs.idx hp.name = .ok f ∧ f < cs.length := by
  unfold ConfigSpace.idx
  split
  · rename_i i hi
    exact ⟨i, rfl, by rw [List.findIdx?_eq_some_iff_getElem] at hi; exact hi.1⟩
  · rename_i hi
    rw [List.findIdx?_eq_none_iff] at hi
    simpa using hi hp h

variable [Transc K]

/-- the outcome of one pass of the loop body -/
def evalSplit (cs : ConfigSpace K) (minPoints : Nat) (n : Node K) (cand : Hp K × K) : Option (K × Node K × Node K) :=
  match splitAtValue cs n cand.1 cand.2 with
  | .ok (l, r) => if l.x.length < minPoints ∨ r.x.length < minPoints then none else some (regionLoss l.v + regionLoss r.v, l, r)
  | .error _ => none

theorem calcBestSplit_eq {cs : ConfigSpace K} {possible : List (Hp K)} (hpos : ∀ hp ∈ possible, hp ∈ cs) {P : Nat} {n : Node K}
    (hn : RegionShape P cs.length n) (h2 : 2 ≤ n.x.length) (N minPoints : Nat) :
    calcBestSplit cs possible N minPoints n =
      .ok ((((candidates possible N).map (evalSplit cs minPoints n)).foldl keepBest none).map (·.2)) := by
  unfold calcBestSplit
  rw [if_pos (by simp [Node.splittable]; omega)]
  rw [foldlM_ok (g := fun s a => keepBest s (evalSplit cs minPoints n a))]
  · rw [Py.ok_bind, foldl_keepBest_map]; rfl
  · intro s a ha
    obtain ⟨k, hk⟩ := List.mem_iff_getElem?.1 ha
    obtain ⟨i, j, hp, hi, hj, -, rfl⟩ := (candidates_at _ _ _ _).1 hk
    obtain ⟨f, hf, hfF⟩ := idx_of_mem (hpos hp (List.mem_of_getElem? hi))
    obtain ⟨l, r, hs, -, -, -⟩ := splitAtValue_spec hn hf hfF (threshold N (j + 1) : K)
    unfold trySplit evalSplit
    dsimp only
    rw [hs, Py.ok_bind]
    dsimp only
    split
    · cases s <;> rfl
    · cases s with
      | none => rfl
      | some b => simp only [updateBest, keepBest]; split <;> rfl

/-- **C53** the result is the first among the admissible splits with the smallest summed loss; None exactly when there is no
admissible split. -/
theorem C53_best_split {cs : ConfigSpace K} (hwf : cs.WF) {possible : List (Hp K)} (hpos : ∀ hp ∈ possible, hp ∈ cs) {P : Nat} {n : Node K}
    (hn : RegionShape P cs.length n) (h2 : 2 ≤ (curves n).length) (N minPoints : Nat) :
    ∃ res, calcBestSplit cs possible N minPoints n = .ok res ∧
      (res = none ↔ ∀ i j hp f, ¬ IsCandidate cs possible N minPoints (curves n) i j hp f) ∧
      ∀ l r, res = some (l, r) → ∃ i j hp f, IsBestCandidate cs possible N minPoints P (curves n) i j hp f ∧
        IsSplit f hp (threshold N j) n l r ∧ RegionShape P cs.length l ∧ RegionShape P cs.length r := by
  rw [hn.curves_length] at h2
  rw [calcBestSplit_eq hpos hn h2]
  obtain ⟨evals, hev⟩ : ∃ e, e = (candidates possible N).map (evalSplit cs minPoints n) := ⟨_, rfl⟩
  rw [← hev]
  -- evaluations correspond to candidates
  have key1 : ∀ {i j hp f}, IsCandidate cs possible N minPoints (curves n) i j hp f → ∃ l r,
      evals[i * N + (j - 1)]? = some (some (splitCost P N (curves n) f j, l, r)) := by
    intro i j hp f hc
    have hf := (isFeature_idx hwf).1 hc.feature
    have hfF : f < cs.length := by
      obtain ⟨g, hg, _⟩ := hc.feature
      exact (List.getElem?_eq_some_iff.1 hg).1
    obtain ⟨l, r, hs, hsp, hl, hr⟩ := splitAtValue_spec hn hf hfF (threshold N j : K)
    refine ⟨l, r, ?_⟩
    have hcand : (candidates possible N)[i * N + (j - 1)]? = some (hp, threshold N j) := by
      refine (candidates_at _ _ _ _).2 ⟨i, j - 1, hp, hc.hp_at, by have := hc.one_le; have := hc.le; omega, rfl, ?_⟩
      rw [show j - 1 + 1 = j by have := hc.one_le; omega]
    rw [hev, List.getElem?_map, hcand]
    simp only [Option.map_some, evalSplit, hs]
    have e1 : curves l = lowerPart f (threshold N j) (curves n) := hsp.left_curves
    have e2 : curves r = upperPart f (threshold N j) (curves n) := hsp.right_curves
    rw [if_neg, regionLoss_curves hl, regionLoss_curves hr, e1, e2]; rfl
    rw [← hl.curves_length, ← hr.curves_length, e1, e2]
    have := hc.left_size
    have := hc.right_size
    omega
  have key2 : ∀ {k : Nat} {b}, evals[k]? = some (some b) → ∃ i j hp f, k = i * N + (j - 1) ∧
      IsCandidate cs possible N minPoints (curves n) i j hp f ∧ b.1 = splitCost P N (curves n) f j ∧
      IsSplit f hp (threshold N j) n b.2.1 b.2.2 ∧ RegionShape P cs.length b.2.1 ∧ RegionShape P cs.length b.2.2 := by
    intro k b hb
    rw [hev, List.getElem?_map, Option.map_eq_some_iff] at hb
    obtain ⟨c, hc, hb⟩ := hb
    obtain ⟨i, j, hp, hi, hj, rfl, rfl⟩ := (candidates_at _ _ _ _).1 hc
    obtain ⟨f, hf, hfF⟩ := idx_of_mem (hpos hp (List.mem_of_getElem? hi))
    obtain ⟨l, r, hs, hsp, hl, hr⟩ := splitAtValue_spec hn hf hfF (threshold N (j + 1) : K)
    simp only [evalSplit, hs] at hb
    have e1 : curves l = lowerPart f (threshold N (j + 1)) (curves n) := hsp.left_curves
    have e2 : curves r = upperPart f (threshold N (j + 1)) (curves n) := hsp.right_curves
    split at hb
    · cases hb
    · rename_i hsz
      obtain rfl := Option.some.inj hb
      rw [← hl.curves_length, ← hr.curves_length, e1, e2] at hsz
      refine ⟨i, j + 1, hp, f, by simp, ⟨hi, (isFeature_idx hwf).2 hf, by omega, hj, by omega, by omega⟩, ?_, hsp, hl, hr⟩
      show regionLoss l.v + regionLoss r.v = _
      rw [regionLoss_curves hl, regionLoss_curves hr, e1, e2]; rfl
  obtain ⟨hb1, hb2⟩ := keepBest_foldl evals
  refine ⟨_, rfl, ?_, ?_⟩
  · rw [Option.map_eq_none_iff, hb1]
    constructor
    · intro h i j hp f hc
      obtain ⟨l, r, he⟩ := key1 hc
      exact h _ _ he
    · intro h k b hk
      obtain ⟨i, j, hp, f, -, hc, -⟩ := key2 hk
      exact h i j hp f hc
  · intro l r h
    rw [Option.map_eq_some_iff] at h
    obtain ⟨b, hb, hlr⟩ := h
    obtain ⟨k, hk, hmin⟩ := hb2 b hb
    obtain ⟨i, j, hp, f, rfl, hc, hcost, hsp, hl, hr⟩ := key2 hk
    rw [hlr] at hsp hl hr
    refine ⟨i, j, hp, f, ⟨hc, fun i' j' hp' f' hc' => ?_⟩, hsp, hl, hr⟩
    obtain ⟨l', r', he⟩ := key1 hc'
    have := hmin _ _ he
    rw [hcost] at this
    refine ⟨this.1, fun h => ?_⟩
    have hle := this.2 h
    have h1 := hc.one_le; have h2 := hc.le; have h3 := hc'.one_le; have h4 := hc'.le
    rcases Nat.lt_trichotomy i i' with hlt | heq | hgt
    · exact .inl hlt
    · subst heq; exact .inr ⟨rfl, by omega⟩
    · exfalso
      have : (i' + 1) * N ≤ i * N := Nat.mul_le_mul_right N hgt
      rw [Nat.add_mul] at this
      omega

omit [IsStrictOrderedRing K] in
/-- **C53** a region with fewer than two curves cannot be split. -/
theorem C53_terminal {cs : ConfigSpace K} {P F : Nat} {n : Node K} (hn : RegionShape P F n) (h : (curves n).length < 2)
    (possible : List (Hp K)) (N minPoints : Nat) : calcBestSplit cs possible N minPoints n = .error .assertion := by
  rw [hn.curves_length] at h
  unfold calcBestSplit
  rw [if_neg]
  simp [Node.splittable]; omega

end PyPDP
