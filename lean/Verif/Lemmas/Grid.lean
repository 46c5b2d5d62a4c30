/-
Facts about grids: `ceilRoot`, cartesian products, evenly spaced axes.
-/
import Verif.Lemmas.Sampler
import Verif.Lemmas.Linspace
import Mathlib.Analysis.SpecialFunctions.Pow.Real
import Mathlib.Algebra.Order.Floor.Semiring
import Mathlib.Tactic.FieldSimp

namespace PyPDP

theorem ceilRoot_le {d n k : Nat} (h : n ≤ k ^ d) : ceilRoot d n ≤ k := by
  unfold ceilRoot
  cases hf : (List.range (n + 1)).find? fun k => decide (n ≤ k ^ d) with
  | none =>
    by_contra hk
    simp only [Option.getD_none, not_le] at hk
    rw [List.find?_eq_none] at hf
    have := hf k (List.mem_range.2 (by omega))
    simp at this
    omega
  | some j =>
    simp only [Option.getD_some]
    by_contra hk
    rw [List.find?_eq_some_iff_append] at hf
    obtain ⟨_, as, bs, hab, hno⟩ := hf
    have hjlen : as.length = j ∧ j < n + 1 := by
      have hj : (List.range (n + 1))[as.length]? = some j := by rw [hab]; simp
      obtain ⟨h1, h2⟩ := List.getElem?_eq_some_iff.1 hj
      simp at h1 h2
      omega
    have hmem : k ∈ as := by
      have h1 : (List.range (n + 1))[k]? = some k := List.getElem?_range (by omega)
      rw [hab, List.getElem?_append_left (by omega)] at h1
      exact List.mem_of_getElem? h1
    have := hno k hmem
    simp at this
    omega

theorem le_ceilRoot_pow {d n : Nat} (hd : d ≠ 0) : n ≤ ceilRoot d n ^ d := by
  unfold ceilRoot
  cases hf : (List.range (n + 1)).find? fun k => decide (n ≤ k ^ d) with
  | none =>
    rw [List.find?_eq_none] at hf
    have := hf n (List.mem_range.2 (by omega))
    simp only [decide_eq_true_eq] at this
    exact absurd (Nat.le_self_pow hd n) this
  | some j =>
    have := List.find?_some hf
    simpa using this

/-- the model's `ceilRoot` is the number the code computes -/
theorem ceilRoot_eq_ceil {d : Nat} (hd : d ≠ 0) (n : Nat) : ceilRoot d n = ⌈(n : ℝ) ^ ((1 : ℝ) / d)⌉₊ := by
  have key : ∀ k : Nat, (n : ℝ) ^ ((1 : ℝ) / d) ≤ k ↔ n ≤ k ^ d := by
    intro k
    have hdpos : (0 : ℝ) < d := by positivity
    have : ((n : ℝ) ^ ((1 : ℝ) / d)) ^ d = n := by
      rw [one_div, Real.rpow_inv_natCast_pow (by positivity) hd]
    constructor
    · intro h
      have h2 := pow_le_pow_left₀ (Real.rpow_nonneg (Nat.cast_nonneg n) _) h d
      rw [this] at h2
      exact_mod_cast h2
    · intro h
      have h2 : (n : ℝ) ≤ (k : ℝ) ^ d := by exact_mod_cast h
      rw [← this] at h2
      exact le_of_pow_le_pow_left₀ hd (by positivity) h2
  apply le_antisymm
  · exact ceilRoot_le ((key _).1 (Nat.le_ceil _))
  · exact Nat.ceil_le.2 ((key _).2 (le_ceilRoot_pow hd))

variable {α : Type}

theorem mem_cartesian {ls : List (List α)} {c : List α} : c ∈ cartesian ls ↔ List.Forall₂ (fun v vs => v ∈ vs) c ls := by
  induction ls generalizing c with
  | nil => simp [cartesian]
  | cons vs rest ih =>
    simp only [cartesian, List.mem_flatMap, List.mem_map]
    constructor
    · rintro ⟨v, hv, c', hc', rfl⟩
      exact .cons hv (ih.1 hc')
    · intro h
      cases h with
      | cons hv hc => exact ⟨_, hv, _, ih.2 hc, rfl⟩

theorem cartesian_length (ls : List (List α)) : (cartesian ls).length = (ls.map List.length).prod := by
  induction ls with
  | nil => simp [cartesian]
  | cons vs rest ih => simp [cartesian, List.length_flatMap, ih]

theorem cartesian_nodup {ls : List (List α)} (h : ∀ l ∈ ls, l.Nodup) : (cartesian ls).Nodup := by
  induction ls with
  | nil => simp [cartesian]
  | cons vs rest ih =>
    have h1 := ih fun l hl => h l (List.mem_cons_of_mem _ hl)
    rw [cartesian, List.nodup_flatMap]
    refine ⟨fun v _ => h1.map (fun a b hab => (List.cons.inj hab).2), ?_⟩
    apply List.Pairwise.imp _ (h vs List.mem_cons_self)
    intro a b hab
    rw [Function.onFun, List.disjoint_left]
    rintro c hc hc'
    simp only [List.mem_map] at hc hc'
    obtain ⟨c1, _, rfl⟩ := hc
    obtain ⟨c2, _, h2⟩ := hc'
    exact hab (List.cons.inj h2).1.symm

theorem linspace_nodup {K : Type} [Field K] [LinearOrder K] [IsStrictOrderedRing K] {a b : K} (h : a < b) (k : Nat) :
    (linspace a b k).Nodup :=
  (linspace_pairwise h k).imp fun h => h.ne

end PyPDP
