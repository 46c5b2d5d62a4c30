/-
The loop of `partition` grows the greedy tree.
-/
import Verif.Props.BestSplit

namespace PyPDP
open Spec
variable {K : Type}

/-- leaves below a node, in the order in which the loop appends them -/
inductive Grown (split : Node K → Py (Option (Node K × Node K))) (maxDepth : Int) : Node K → List (Node K) → Prop
  | stop {n} : (n.splittable = false ∨ maxDepth ≤ n.depth) → Grown split maxDepth n [n]
  | noSplit {n} : ¬ (n.splittable = false ∨ maxDepth ≤ n.depth) → split n = .ok none → Grown split maxDepth n [n]
  | branch {n l r Ll Lr} : ¬ (n.splittable = false ∨ maxDepth ≤ n.depth) → split n = .ok (some (l, r)) → Grown split maxDepth l Ll →
      Grown split maxDepth r Lr → Grown split maxDepth n (Lr ++ Ll)

theorem Grown.ne_nil {split : Node K → Py (Option (Node K × Node K))} {d : Int} {n : Node K} {L : List (Node K)} (h : Grown split d n L) :
    1 ≤ L.length := by
  induction h with
  | stop => simp
  | noSplit => simp
  | branch _ _ _ _ ih1 ih2 => simp; omega

theorem partitionLoop_eq {split : Node K → Py (Option (Node K × Node K))} {d : Int} (fuel : Nat) :
    ∀ (queue : List (Node K)) (Ls : List (List (Node K))) (leaves : List (Node K)), List.Forall₂ (Grown split d) queue Ls →
      (Ls.map fun L => 2 * L.length - 1).sum < fuel → partitionLoop split d fuel queue leaves = (leaves ++ Ls.flatten, .finished) := by
  induction fuel with
  | zero => intro _ _ _ _ h; omega
  | succ fuel ih =>
    intro queue Ls leaves hq hf
    cases hq with
    | nil => simp [partitionLoop]
    | @cons n L queue Ls hn hq =>
      have h1 := hn.ne_nil
      simp only [List.map_cons, List.sum_cons] at hf
      rw [partitionLoop]
      cases hn with
      | stop hs =>
        rw [if_pos hs, ih queue Ls _ hq (by simp at hf; omega)]
        simp
      | noSplit hs he =>
        rw [if_neg hs, he]
        dsimp only
        rw [ih queue Ls _ hq (by simp at hf; omega)]
        simp
      | @branch _ l r Ll Lr hs he hl hr =>
        rw [if_neg hs, he]
        dsimp only
        have h2 := hl.ne_nil
        have h3 := hr.ne_nil
        rw [ih (r :: l :: queue) (Lr :: Ll :: Ls) _ (.cons hr (.cons hl hq)) (by
          simp only [List.map_cons, List.sum_cons]
          simp only [List.length_append] at hf
          omega)]
        simp

variable [Field K] [LinearOrder K] [IsStrictOrderedRing K] [Transc K]

theorem grown_exists {cs possible : List (Hp K)} (hwf : ConfigSpace.WF cs) (hpos : ∀ hp ∈ possible, hp ∈ cs) (N minPoints : Nat) {P : Nat}
    {d : Int} (k : Nat) : ∀ n : Node K, RegionShape P cs.length n → d ≤ n.depth + k →
      ∃ L, Grown (calcBestSplit cs possible N minPoints) d n L ∧ Greedy cs possible N minPoints P d n L ∧ L.length ≤ 2 ^ k := by
  induction k with
  | zero =>
    intro n hn hd
    exact ⟨[n], .stop (.inr (by simpa using hd)), .leaf hn (.inl (by simpa using hd)), by simp⟩
  | succ k ih =>
    intro n hn hd
    by_cases hs : n.splittable = false ∨ d ≤ n.depth
    · refine ⟨[n], .stop hs, .leaf hn ?_, by simp [Nat.one_le_two_pow]⟩
      rcases hs with hs | hs
      · right; left
        rw [hn.curves_length]
        simpa [Node.splittable] using hs
      · exact .inl hs
    · have hs' := hs
      push Not at hs'
      have h2 : 2 ≤ (curves n).length := by
        rw [hn.curves_length]
        have := hs'.1
        simp [Node.splittable] at this
        omega
      obtain ⟨res, hres, hnone, hsome⟩ := C53_best_split hwf hpos hn h2 N minPoints
      cases res with
      | none => exact ⟨[n], .noSplit hs hres, .leaf hn (.inr (.inr (hnone.1 rfl))), by simp [Nat.one_le_two_pow]⟩
      | some lr =>
        obtain ⟨l, r⟩ := lr
        obtain ⟨i, j, hp, f, hbest, hsp, hl, hr⟩ := hsome l r rfl
        obtain ⟨Ll, g1, g2, g3⟩ := ih l hl (by rw [hsp.left_depth]; push_cast; push_cast at hd; omega)
        obtain ⟨Lr, g4, g5, g6⟩ := ih r hr (by rw [hsp.right_depth]; push_cast; push_cast at hd; omega)
        refine ⟨Lr ++ Ll, .branch hs hres g1 g4, .branch hn hs'.2 h2 hbest hsp g2 g5, ?_⟩
        rw [List.length_append, pow_succ]; omega

/-- what `partition` does -/
theorem partition_eq {P : Nat} {p : DT K} (hp : ValidDT P p) {d : Int} (hd : 0 < d) :
    ∃ L, dtPartition p d = ({ p with leaves := L }, .ok L) ∧
      Grown (calcBestSplit p.cfg.space p.possible p.numSplits p.minPoints) d p.root L ∧
      Greedy p.cfg.space p.possible p.numSplits p.minPoints P d p.root L ∧ L.length ≤ 2 ^ d.toNat := by
  obtain ⟨L, h1, h2, h3⟩ := grown_exists hp.wf hp.possible_mem p.numSplits p.minPoints (d := d) d.toNat p.root hp.shape (by rw [hp.depth]; omega)
  refine ⟨L, ?_, h1, h2, h3⟩
  have := h1.ne_nil
  unfold dtPartition
  rw [if_pos hd, partitionLoop_eq (loopFuel d) [p.root] [L] [] (.cons h1 .nil) (by
    simp only [List.map_cons, List.map_nil, List.sum_cons, List.sum_nil, loopFuel, pow_succ]; omega)]
  simp

end PyPDP
