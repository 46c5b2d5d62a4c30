/-
The decision tree in machine arithmetic.
-/
import Verif.Spec.Machine
import Verif.Lemmas.Tree

namespace PyPDP
open Spec
variable {F : Type} [Machine F]

omit [Machine F] in
theorem firstValues_some {x : List (List (List F))} {P W f : Nat} (hP : 1 ≤ P) (hx : ∀ m ∈ x, m.length = P ∧ ∀ r ∈ m, r.length = W)
    (hf : f < W) : ∃ vals, firstValues x f = .ok vals ∧ x.map (fun m => (m[0]?).bind (·[f]?)) = vals.map some := by
  induction x with
  | nil => exact ⟨[], rfl, rfl⟩
  | cons m x ih =>
    obtain ⟨vals, h1, h2⟩ := ih fun q hq => hx q (List.mem_cons_of_mem _ hq)
    obtain ⟨hl, hr⟩ := hx m (by simp)
    obtain ⟨r, rs, rfl⟩ : ∃ r rs, m = r :: rs := by
      cases m with
      | nil => simp at hl; omega
      | cons r rs => exact ⟨r, rs, rfl⟩
    have hrl := hr r (by simp)
    have hg : r[f]? = some r[f] := List.getElem?_eq_getElem (by omega)
    refine ⟨r[f] :: vals, ?_, by simp [h2, hg]⟩
    unfold firstValues at h1 ⊢
    rw [List.mapM_cons, h1]
    simp [pyGet, hg]

theorem filterByConditionM_spec {cs : ConfigSpace F} {n : Node F} {P W f : Nat} (hn : RegionShape P W n) {hp : Hp F}
    (hf : cs.idx hp.name = .ok f) (hfW : f < W) (t : F) (le : Bool) :
    ∃ m, filterByConditionM cs n ⟨hp, .flt t, some le⟩ = .ok m ∧ IsSide f hp t le n m ∧ RegionShape P W m := by
  obtain ⟨vals, hv1, hv2⟩ := firstValues_some hn.pos hn.xs hfW
  obtain ⟨mask, hmask⟩ : ∃ mask, mask = condMaskM (some le) t vals := ⟨_, rfl⟩
  have hm2 : mask = (curves n).map (onSide f t le) := by
    have e : (curves n).map (valueAt f) = vals.map some := by
      rw [← hv2]
      conv_rhs => rw [← hn.map_x, List.map_map]
      rfl
    have e2 : (curves n).map (onSide f t le) = ((curves n).map (valueAt f)).map fun v =>
        match v with | some x => if le then Machine.le x t else Machine.lt t x | none => false := by
      rw [List.map_map]; rfl
    rw [hmask, e2, e]
    cases le <;> simp [condMaskM, Function.comp_def]
  obtain ⟨hyv1, hyv2⟩ := maskSelect_zip mask hn.yv
  obtain ⟨hxy1, hxy2⟩ := maskSelect_zip mask hn.xy
  have hsh : RegionShape P W (⟨n.depth + 1, maskSelect mask n.x, maskSelect mask n.y, maskSelect mask n.v, n.conds ++ [⟨hp, .flt t, some le⟩]⟩ : Node F) :=
    ⟨hn.pos, hxy2, hyv2, fun m hm => hn.xs m (mem_of_mem_maskSelect hm), fun m hm => hn.ys m (mem_of_mem_maskSelect hm),
      fun m hm => hn.vs m (mem_of_mem_maskSelect hm)⟩
  refine ⟨_, ?_, ⟨?_, rfl, rfl⟩, hsh⟩
  · unfold filterByConditionM
    rw [hf, Py.ok_bind, hv1, Py.ok_bind, NVal.toNumM, Py.ok_bind]
    dsimp only
    rw [← hmask]
    have hrow : rowsAgree (maskSelect mask n.x) (maskSelect mask n.y) (maskSelect mask n.v) = true := by
      unfold rowsAgree
      have e1 : (maskSelect mask n.x).map List.length = (maskSelect mask n.x).map fun _ => P :=
        List.map_congr_left fun m hm => (hsh.xs m hm).1
      have e2 : (maskSelect mask n.y).map List.length = (maskSelect mask n.y).map fun _ => P :=
        List.map_congr_left fun m hm => hsh.ys m hm
      have e3 : (maskSelect mask n.v).map List.length = (maskSelect mask n.v).map fun _ => P :=
        List.map_congr_left fun m hm => hsh.vs m hm
      rw [e1, e2, e3, List.map_const', List.map_const', List.map_const', hxy2, hyv2]
      simp
    rw [mkNode, if_pos ⟨hxy2, hyv2, hrow⟩]
  · have hyvl : (n.y.zip n.v).length = n.x.length := by rw [List.length_zip, ← hn.yv, min_self, hn.xy]
    show (maskSelect mask n.x).zip ((maskSelect mask n.y).zip (maskSelect mask n.v)) = _
    rw [hyv1, (maskSelect_zip mask hyvl.symm).1, hm2]
    exact maskSelect_map _ _

theorem splitAtValueM_spec {cs : ConfigSpace F} {n : Node F} {P W f : Nat} (hn : RegionShape P W n) {hp : Hp F} (hf : cs.idx hp.name = .ok f)
    (hfW : f < W) (t : F) :
    ∃ l r, splitAtValueM cs n hp t = .ok (l, r) ∧ IsSide f hp t true n l ∧ IsSide f hp t false n r ∧ RegionShape P W l ∧ RegionShape P W r := by
  obtain ⟨l, hl, hl1, hl2⟩ := filterByConditionM_spec hn hf hfW t true
  obtain ⟨r, hr, hr1, hr2⟩ := filterByConditionM_spec hn hf hfW t false
  refine ⟨l, r, ?_, hl1, hr1, hl2, hr2⟩
  unfold splitAtValueM
  simp only [checkCond, Py.ok_bind, hl, hr]
  rfl

/-- what one pass of the loop over the candidates keeps true -/
theorem trySplitM_fold {cs possible : List (Hp F)} (hpos : ∀ hp ∈ possible, hp ∈ cs) (hwf : ConfigSpace.WF cs) {N minPoints P : Nat} {n : Node F}
    (hn : RegionShape P cs.length n) (cands : List (Hp F × F)) (hc : ∀ c ∈ cands, c.1 ∈ possible ∧ c.2 ∈ Machine.splitVals (F := F) N)
    (Q : Option (F × Node F × Node F) → Prop) (h0 : Q none)
    (hstep : ∀ best l r hp t f, Q best → Admissible cs possible N minPoints P n l r hp t f → Q (updateBestM best (totalLoss l r) l r)) :
    ∃ best, cands.foldlM (trySplitM cs minPoints n) none = .ok best ∧ Q best := by
  suffices ∀ best, Q best → ∃ best', cands.foldlM (trySplitM cs minPoints n) best = .ok best' ∧ Q best' from this none h0
  induction cands with
  | nil => exact fun best hb => ⟨best, rfl, hb⟩
  | cons c cands ih =>
    intro best hb
    have ih := ih fun q hq => hc q (List.mem_cons_of_mem _ hq)
    obtain ⟨hcp, hct⟩ := hc c (by simp)
    obtain ⟨f, hf, hfW⟩ := idx_of_mem (hpos c.1 hcp)
    obtain ⟨l, r, hs, hl, hr, hsl, hsr⟩ := splitAtValueM_spec hn hf hfW c.2
    rw [List.foldlM_cons]
    have hstep' : ∃ b', trySplitM cs minPoints n best c = .ok b' ∧ Q b' := by
      unfold trySplitM
      rw [hs, Py.ok_bind]
      dsimp only
      split
      · exact ⟨best, rfl, hb⟩
      · rename_i hsz
        push Not at hsz
        exact ⟨_, rfl, hstep best l r c.1 c.2 f hb ⟨hcp, hct, (isFeature_idx hwf).2 hf, hl, hr, hsl, hsr,
          by rw [hsl.curves_length]; exact hsz.1, by rw [hsr.curves_length]; exact hsz.2⟩⟩
    obtain ⟨b', hb1, hb2⟩ := hstep'
    rw [hb1, Py.ok_bind]
    exact ih b' hb2

theorem candidatesM_mem {possible : List (Hp F)} {N : Nat} {c : Hp F × F} (h : c ∈ candidatesM possible N) :
    c.1 ∈ possible ∧ c.2 ∈ Machine.splitVals (F := F) N := by
  unfold candidatesM at h
  obtain ⟨hp, h1, h⟩ := List.mem_flatMap.1 h
  obtain ⟨t, h2, rfl⟩ := List.mem_map.1 h
  exact ⟨h1, h2⟩

/-- `calc_best_split` of a region with at least two curves ends without an exception, with None or with an admissible split -/
theorem calcBestSplitM_ok {cs possible : List (Hp F)} (hpos : ∀ hp ∈ possible, hp ∈ cs) (hwf : ConfigSpace.WF cs) (N minPoints : Nat) {P : Nat}
    {n : Node F} (hn : RegionShape P cs.length n) (hs : n.splittable = true) :
    ∃ res, calcBestSplitM cs possible N minPoints n = .ok res ∧
      ∀ l r, res = some (l, r) → ∃ hp t f, Admissible cs possible N minPoints P n l r hp t f := by
  obtain ⟨best, h1, h2⟩ := trySplitM_fold hpos hwf hn (minPoints := minPoints) (candidatesM possible N) (fun c hc => candidatesM_mem hc)
    (fun best => ∀ b, best = some b → ∃ hp t f, Admissible cs possible N minPoints P n b.2.1 b.2.2 hp t f) (by simp) (by
      intro best l r hp t f hb ha b hbb
      unfold updateBestM at hbb
      split at hbb
      · split at hbb
        · obtain rfl := Option.some.inj hbb; exact ⟨hp, t, f, ha⟩
        · cases hbb
      · split at hbb
        · obtain rfl := Option.some.inj hbb; exact ⟨hp, t, f, ha⟩
        · exact hb _ hbb)
  refine ⟨best.map (·.2), ?_, ?_⟩
  · unfold calcBestSplitM
    rw [if_pos hs, h1]
    rfl
  · intro l r hlr
    cases best with
    | none => cases hlr
    | some b =>
      obtain ⟨a, l', r'⟩ := b
      obtain ⟨rfl, rfl⟩ := Prod.mk.inj (Option.some.inj hlr)
      exact h2 _ rfl

/-- the leaves below a node -/
inductive GrownM (cs possible : List (Hp F)) (N minPoints P : Nat) (d : Int) : Node F → List (Node F) → Prop
  | leaf {n} : RegionShape P cs.length n → GrownM cs possible N minPoints P d n [n]
  | branch {n l r Ll Lr hp t f} : RegionShape P cs.length n → n.depth < d → Admissible cs possible N minPoints P n l r hp t f →
      GrownM cs possible N minPoints P d l Ll → GrownM cs possible N minPoints P d r Lr → GrownM cs possible N minPoints P d n (Lr ++ Ll)

theorem grownM_exists {cs possible : List (Hp F)} (hwf : ConfigSpace.WF cs) (hpos : ∀ hp ∈ possible, hp ∈ cs) (N minPoints : Nat) {P : Nat}
    {d : Int} (k : Nat) : ∀ n : Node F, RegionShape P cs.length n → d ≤ n.depth + k →
      ∃ L, Grown (calcBestSplitM cs possible N minPoints) d n L ∧ GrownM cs possible N minPoints P d n L ∧ L.length ≤ 2 ^ k := by
  induction k with
  | zero => exact fun n hn hd => ⟨[n], .stop (.inr (by simpa using hd)), .leaf hn, by simp⟩
  | succ k ih =>
    intro n hn hd
    by_cases hs : n.splittable = false ∨ d ≤ n.depth
    · exact ⟨[n], .stop hs, .leaf hn, by simp [Nat.one_le_two_pow]⟩
    · have hs' := hs
      push Not at hs'
      obtain ⟨res, hres, hsome⟩ := calcBestSplitM_ok hpos hwf N minPoints hn (by simpa using hs'.1)
      cases res with
      | none => exact ⟨[n], .noSplit hs hres, .leaf hn, by simp [Nat.one_le_two_pow]⟩
      | some lr =>
        obtain ⟨l, r⟩ := lr
        obtain ⟨hp, t, f, ha⟩ := hsome l r rfl
        obtain ⟨Ll, g1, g2, g3⟩ := ih l ha.left_shape (by rw [ha.left.depth]; push_cast; push_cast at hd; omega)
        obtain ⟨Lr, g4, g5, g6⟩ := ih r ha.right_shape (by rw [ha.right.depth]; push_cast; push_cast at hd; omega)
        refine ⟨Lr ++ Ll, .branch hs hres g1 g4, .branch hn hs'.2 ha g2 g5, ?_⟩
        rw [List.length_append, pow_succ]; omega

theorem partitionM_eq {P : Nat} {p : DT F} (hp : ValidDT P p) {d : Int} (hd : 0 < d) :
    ∃ L, dtPartitionM p d = ({ p with leaves := L }, .ok L) ∧
      GrownM p.cfg.space p.possible p.numSplits p.minPoints P d p.root L ∧ 1 ≤ L.length ∧ L.length ≤ 2 ^ d.toNat := by
  obtain ⟨L, h1, h2, h3⟩ := grownM_exists hp.wf hp.possible_mem p.numSplits p.minPoints (d := d) d.toNat p.root hp.shape (by rw [hp.depth]; omega)
  have := h1.ne_nil
  refine ⟨L, ?_, h2, this, h3⟩
  unfold dtPartitionM
  rw [if_pos hd, partitionLoop_eq (loopFuel d) [p.root] [L] [] (.cons h1 .nil) (by
    simp only [List.map_cons, List.map_nil, List.sum_cons, List.sum_nil, loopFuel, pow_succ]; omega)]
  simp

end PyPDP
