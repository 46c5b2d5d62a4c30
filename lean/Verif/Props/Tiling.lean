/-
C147: the implied spaces of the leaves tile the space.
-/
import Verif.Props.ImpliedSpace
import Mathlib.Algebra.BigOperators.Group.List.Basic
import Mathlib.Algebra.Order.BigOperators.GroupWithZero.List

namespace PyPDP
open Spec

/-- How long the axis of a hyperparameter is: `upper - lower`, on a logarithmic axis the difference of the logarithms. -/
noncomputable def Spec.axisLength (hp : Hp ℝ) : ℝ :=
  match hp.numerical? with
  | some (l, u, true) => Real.log u - Real.log l
  | some (l, u, false) => u - l
  | none => 0

/-- The volume of a space: the product of the lengths of its axes. -/
noncomputable def Spec.volume (space : ConfigSpace ℝ) : ℝ := (space.map axisLength).prod

theorem Spec.axisLength_congr {a b : Hp ℝ} (h : a.numerical? = b.numerical?) : axisLength a = axisLength b := by
  unfold axisLength; rw [h]

/-- the two parts of an axis together are as long as the axis -/
theorem Spec.axisLength_add (n : String) (l w u : ℝ) (g : Bool) :
    axisLength ⟨n, .float l w g⟩ + axisLength ⟨n, .float w u g⟩ = axisLength ⟨n, .float l u g⟩ := by
  cases g <;> simp [axisLength, Hp.numerical?]

theorem Spec.axisLength_pos {hp : Hp ℝ} {l u : ℝ} {g : Bool} (hb : hp.numerical? = some (l, u, g)) (h : l < u) (hpos : g = true → 0 < l) :
    0 < axisLength hp := by
  unfold axisLength
  rw [hb]
  cases g
  · simpa using h
  · simpa using Real.log_lt_log (hpos rfl) h

theorem Spec.volume_pos {space : ConfigSpace ℝ} (h : NumericalSpace space) : 0 < volume space := by
  refine List.prod_pos fun x hx => ?_
  obtain ⟨hp, hm, rfl⟩ := List.mem_map.1 hx
  obtain ⟨l, u, g, hb, h1, h2⟩ := h hp hm
  exact axisLength_pos hb h1 h2

/-- changing one axis of a space whose names differ -/
theorem volume_modify {out : ConfigSpace ℝ} (hnd : (out.map Hp.name).Nodup) {f : Nat} {q : Hp ℝ} (hq : out[f]? = some q) :
    ∃ rest : ℝ, ∀ F : Hp ℝ → Hp ℝ, volume (modifyHp F q.name out) = rest * axisLength (F q) := by
  induction out generalizing f with
  | nil => simp at hq
  | cons a out ih =>
    rw [List.map_cons, List.nodup_cons] at hnd
    cases f with
    | zero =>
      obtain rfl : a = q := by simpa using hq
      refine ⟨volume out, fun F => ?_⟩
      have : List.map (fun hp : Hp ℝ => if hp.name = a.name then F hp else hp) out = out := by
        conv_rhs => rw [← List.map_id out]
        refine List.map_congr_left fun b hb => ?_
        rw [if_neg, id]
        rintro e
        exact hnd.1 (e ▸ List.mem_map_of_mem hb)
      simp [volume, modifyHp, this, mul_comm]
    | succ f =>
      obtain ⟨rest, h⟩ := ih hnd.2 (f := f) (by simpa using hq)
      refine ⟨axisLength a * rest, fun F => ?_⟩
      have hne : ¬ a.name = q.name := fun e => hnd.1 (e ▸ List.mem_map_of_mem (List.mem_of_getElem? (by simpa using hq)))
      have := h F
      simp only [volume, modifyHp] at this
      simp only [volume, modifyHp, List.map_cons, if_neg hne, List.prod_cons, this, mul_assoc]

/-- one more condition -/
theorem regionImplied_snoc {space : ConfigSpace ℝ} (hwf : space.WF) (hnum : NumericalSpace space) {conds : List (Cond ℝ)} {out : ConfigSpace ℝ}
    (hout : regionImplied space conds = .ok out) {hp : Hp ℝ} (hm : hp ∈ space) {l u : ℝ} {g : Bool} (hb : hp.numerical? = some (l, u, g))
    {q : Hp ℝ} (hq : q ∈ out) (hqn : q.name = hp.name) {t : ℝ} (h0 : 0 ≤ t) (h1 : t ≤ 1) (b : Bool) :
    regionImplied space (conds ++ [⟨hp, .flt t, some b⟩]) = .ok (modifyHp (tighten (some b) (interpolate l u g t)) hp.name out) := by
  obtain ⟨l', u', g', hb', hlt, hpos⟩ := hnum hp hm
  rw [hb] at hb'
  cases hb'
  unfold regionImplied at hout ⊢
  obtain ⟨dic, hd, hout⟩ := Py.bind_eq_ok.1 hout
  have hval : condValue space ⟨hp, .flt t, some b⟩ = .ok (.flt (interpolate l u g t)) := by
    simp only [condValue, C01_unscale_is_interpolation (declares_of_numerical hwf hm hb hlt hpos) h0 h1]; rfl
  have hget : ∃ q, out.get hp.name = .ok q := by
    unfold ConfigSpace.get
    cases hfind : out.find? (fun x => x.name == hp.name) with
    | some q => exact ⟨q, rfl⟩
    | none =>
      have := List.find?_eq_none.1 hfind _ hq
      simp [hqn] at this
  obtain ⟨q', hq'⟩ := hget
  rw [hd, Py.ok_bind, List.foldlM_append, hout, Py.ok_bind]
  simp only [List.foldlM_cons, List.foldlM_nil, applyCond, hq', hval, Py.ok_bind]
  rfl

theorem CondOf.float {space possible : List (Hp ℝ)} (hpm : ∀ hp ∈ possible, hp ∈ space) {N : Nat} {conds : List (Cond ℝ)}
    (h : ∀ c ∈ conds, CondOf possible N c) : FloatConds space conds := by
  intro c hc
  obtain ⟨hm, ⟨j, -, hj2, hnv⟩, hb⟩ := h c hc
  have hN : (0 : ℝ) < (N : ℝ) + 1 := by positivity
  refine ⟨hpm _ hm, ⟨_, hnv, div_nonneg (by positivity) hN.le, ?_⟩, hb⟩
  rw [threshold, div_le_one hN]
  have : (j : ℝ) ≤ N := by exact_mod_cast hj2
  linarith

/-- the implied spaces below a region add up to the one of the region -/
theorem Spec.Greedy.volumes {space possible : List (Hp ℝ)} {N minPoints P : Nat} {d : Int} {n : Node ℝ} {L : List (Node ℝ)}
    (h : Greedy space possible N minPoints P d n L) (hwf : ConfigSpace.WF space) (hnum : NumericalSpace space)
    (hpm : ∀ hp ∈ possible, hp ∈ space) (hmin : 1 ≤ minPoints) (hconds : ∀ c ∈ n.conds, CondOf possible N c)
    (hside : ∀ c ∈ n.conds, ∀ cv ∈ curves n, onSide space c cv = true) {out : ConfigSpace ℝ} (hout : regionImplied space n.conds = .ok out) :
    ∃ outs, L.mapM (fun m => regionImplied space m.conds) = .ok outs ∧ (outs.map volume).sum = volume out := by
  induction h generalizing out with
  | leaf _ _ => exact ⟨[out], by simp only [List.mapM_cons, hout, List.mapM_nil, Py.ok_bind, Py.pure_eq], by simp⟩
  | @branch n l r Ll Lr i j hp f hn hdep h2 hbest hsp _ _ ih1 ih2 =>
    have hmp := List.mem_of_getElem? hbest.1.hp_at
    have hms := hpm hp hmp
    obtain ⟨lo, hi, g, hb, hlt, hpos⟩ := hnum hp hms
    have hidx := (isFeature_idx hwf).1 hbest.1.feature
    have hdec := declares_of_numerical hwf hms hb hlt hpos
    have hmono := interpolate_strictMono hdec
    have hN : (0 : ℝ) < (N : ℝ) + 1 := by positivity
    have j1 : (1 : ℝ) ≤ j := by exact_mod_cast hbest.1.one_le
    have j2 : (j : ℝ) ≤ N := by exact_mod_cast hbest.1.le
    have ht0 : (0 : ℝ) < threshold N j := div_pos (by linarith) hN
    have ht1 : (threshold N j : ℝ) < 1 := (div_lt_one hN).2 (by linarith)
    obtain ⟨fs, hfs⟩ := List.mem_iff_getElem?.1 hms
    obtain ⟨out', k1, k2, k3⟩ := C59_box hwf hnum (CondOf.float hpm hconds)
    obtain rfl : out = out' := Except.ok.inj (hout.symm.trans k1)
    obtain ⟨l', u', ho, hu, hl⟩ := k3 fs hp lo hi g hfs hb
    have hnames : out.map Hp.name = space.map Hp.name := by
      refine List.ext_getElem (by simpa using k2) fun e h1 h2 => ?_
      have he : e < List.length space := by simpa using h2
      obtain ⟨a, b, c, hk, -⟩ := hnum _ (List.getElem_mem he)
      obtain ⟨a', b', ho, -⟩ := k3 e _ a b c (List.getElem?_eq_getElem he) hk
      rw [List.getElem_map, List.getElem_map]
      rw [List.getElem?_eq_getElem (by simpa using h1)] at ho
      rw [Option.some.inj ho]
    have hnd : (out.map Hp.name).Nodup := by rw [hnames]; exact hwf
    -- the threshold lies inside the box of the region
    have hcut : ∀ c ∈ n.conds, ∀ le w, CutAt space c hp le w →
        ∃ t, w = interpolate lo hi g t ∧ ∀ cv ∈ curves n, passes f t le cv = true := by
      intro c hc le w hw
      obtain ⟨-, ⟨j', -, -, hnv⟩, -⟩ := hconds c hc
      obtain ⟨a1, a2, a3⟩ := cut_unique hb hw hnv
      refine ⟨_, a3, fun cv hcv => ?_⟩
      have := hside c hc cv hcv
      unfold onSide at this
      rw [a1, hidx, hnv, a2] at this
      exact this
    have hlw : l' < interpolate lo hi g (threshold N j) := by
      rcases hl.1 with rfl | ⟨c, hc, hw⟩
      · have := hmono ht0
        rwa [interpolate_zero hdec] at this
      · obtain ⟨t, rfl, hs⟩ := hcut c hc _ _ hw
        obtain ⟨cv, hcv⟩ := List.exists_mem_of_length_pos (lt_of_lt_of_le (Nat.lt_of_lt_of_le Nat.one_pos hmin) hbest.1.left_size)
        obtain ⟨hcv, hle⟩ := List.mem_filter.1 hcv
        have := hs cv hcv
        simp only [passes, Bool.false_eq_true, if_false, decide_eq_true_eq] at this hle
        exact hmono (this.trans_le hle)
    have hwu : interpolate lo hi g (threshold N j) < u' := by
      rcases hu.1 with rfl | ⟨c, hc, hw⟩
      · have := hmono ht1
        rwa [interpolate_one hdec] at this
      · obtain ⟨t, rfl, hs⟩ := hcut c hc _ _ hw
        obtain ⟨cv, hcv⟩ := List.exists_mem_of_length_pos (lt_of_lt_of_le (Nat.lt_of_lt_of_le Nat.one_pos hmin) hbest.1.right_size)
        obtain ⟨hcv, hle⟩ := List.mem_filter.1 hcv
        have := hs cv hcv
        simp only [passes, if_true, decide_eq_true_eq] at this hle
        exact hmono (hle.trans_le this)
    have step : ∀ b : Bool, regionImplied space (n.conds ++ [⟨hp, .flt (threshold N j), some b⟩]) =
        .ok (modifyHp (tighten (some b) (interpolate lo hi g (threshold N j))) hp.name out) := fun b =>
      regionImplied_snoc hwf hnum hout hms hb (List.mem_of_getElem? ho) rfl ht0.le ht1.le b
    have child : ∀ (ch : Node ℝ) (b : Bool), ch.conds = n.conds ++ [⟨hp, .flt (threshold N j), some b⟩] →
        curves ch = (curves n).filter (passes f (threshold N j) b) →
        (∀ c ∈ ch.conds, CondOf possible N c) ∧ ∀ c ∈ ch.conds, ∀ cv ∈ curves ch, onSide space c cv = true := by
      intro ch b hcd hcv
      rw [hcd, hcv]
      constructor <;> intro c hc
      · rcases List.mem_append.1 hc with hc | hc
        · exact hconds c hc
        · obtain rfl := List.mem_singleton.1 hc
          exact ⟨hmp, ⟨j, hbest.1.one_le, hbest.1.le, rfl⟩, b, rfl⟩
      · intro cv hcv
        obtain ⟨hcv, hp1⟩ := List.mem_filter.1 hcv
        rcases List.mem_append.1 hc with hc | hc
        · exact hside c hc cv hcv
        · obtain rfl := List.mem_singleton.1 hc
          unfold onSide
          dsimp only
          rw [hidx]
          exact hp1
    obtain ⟨a1, a2⟩ := child l true hsp.left_conds hsp.left_curves
    obtain ⟨b1, b2⟩ := child r false hsp.right_conds hsp.right_curves
    obtain ⟨O1, c1, c2⟩ := ih1 a1 a2 (hsp.left_conds ▸ step true)
    obtain ⟨O2, d1, d2⟩ := ih2 b1 b2 (hsp.right_conds ▸ step false)
    refine ⟨O2 ++ O1, ?_, ?_⟩
    · rw [List.mapM_append, d1, Py.ok_bind, c1]; rfl
    · rw [List.map_append, List.sum_append, c2, d2]
      obtain ⟨rest, hr⟩ := volume_modify hnd ho
      dsimp only at hr
      have hid : volume out = rest * axisLength ⟨hp.name, .float l' u' g⟩ := by
        have := hr id
        rwa [show modifyHp id hp.name out = out from by unfold modifyHp; simp] at this
      rw [hr, hr, hid, ← axisLength_add hp.name l' (interpolate lo hi g (threshold N j)) u' g]
      simp only [tighten, if_pos hwu, if_pos hlw, if_true]
      rw [if_neg (by simp)]
      ring

/-- the conditions of a region without any -/
theorem volume_root {space : ConfigSpace ℝ} (hnum : NumericalSpace space) : ∃ out, regionImplied space [] = .ok out ∧ volume out = volume space := by
  obtain ⟨dic, h1, h2, h3⟩ := floatCopies_ok (space := space) fun hp hm => by
    obtain ⟨l, u, g, h, _⟩ := hnum hp hm; exact ⟨l, u, g, h⟩
  refine ⟨dic, by unfold regionImplied; rw [h1]; rfl, ?_⟩
  unfold volume
  congr 1
  refine List.ext_getElem (by simpa using h2) fun f e1 e2 => ?_
  have hf : f < List.length space := by simpa using e2
  obtain ⟨l, u, g, hk, -⟩ := hnum _ (List.getElem_mem hf)
  have ho := h3 f _ l u g (List.getElem?_eq_getElem hf) hk
  rw [List.getElem_map, List.getElem_map]
  rw [List.getElem?_eq_getElem (by simpa using e1)] at ho
  rw [Option.some.inj ho]
  exact axisLength_congr (by rw [hk]; rfl)

/-- **C147** With `min_points_per_node >= 1` the implied spaces of the leaves tile the space: each has a positive volume, and the volumes
add up to the volume of the space. -/
theorem C147_tiling {P : Nat} {p : DT ℝ} (hv : ValidDT P p) (hnum : NumericalSpace p.cfg.space) (hmin : 1 ≤ p.minPoints) {d : Int} (hd : 0 < d) :
    ∃ leaves outs, (dtPartition p d).2 = .ok leaves ∧ leaves.mapM (fun m => regionImplied p.cfg.space m.conds) = .ok outs ∧
      (outs.map volume).sum = volume p.cfg.space ∧ ∀ out ∈ outs, 0 < volume out := by
  obtain ⟨L, h1, -, h3, -⟩ := partition_eq hv hd
  have hL : (dtPartition p d).2 = .ok L := by rw [h1]
  obtain ⟨out, ho, hvol⟩ := volume_root hnum
  obtain ⟨outs, e1, e2⟩ := h3.volumes hv.wf hnum hv.possible_mem hmin (by rw [hv.conds]; simp) (by rw [hv.conds]; simp) (by rw [hv.conds]; exact ho)
  refine ⟨L, outs, hL, e1, e2.trans hvol, fun o hm => volume_pos ?_⟩
  obtain ⟨L', f1, f2⟩ := C59_proper_box hv hnum hmin hd
  obtain rfl : L = L' := Except.ok.inj (hL.symm.trans f1)
  obtain ⟨i, hi⟩ := List.mem_iff_getElem?.1 hm
  obtain ⟨m, hmL, hmo⟩ : ∃ m ∈ L, regionImplied p.cfg.space m.conds = .ok o := by
    obtain ⟨hlen, hg⟩ := List.forall₂_iff_get.1 (Py.mapM_eq_ok.1 e1)
    obtain ⟨hlt, rfl⟩ := List.getElem?_eq_some_iff.1 hi
    exact ⟨L[i]'(hlen ▸ hlt), List.getElem_mem _, hg i (hlen ▸ hlt) hlt⟩
  obtain ⟨o', g1, g2, g3, g4⟩ := f2 m hmL
  obtain rfl : o = o' := Except.ok.inj (hmo.symm.trans g1)
  intro q hq
  obtain ⟨f, hf⟩ := List.mem_iff_getElem?.1 hq
  have hlt : f < List.length p.cfg.space := g3 ▸ (List.getElem?_eq_some_iff.1 hf).1
  obtain ⟨l, u, g, hk, hlu, hpos⟩ := hnum _ (List.getElem_mem hlt)
  obtain ⟨l', u', k1, k2, k3, k4, -⟩ := g4 f _ l u g (List.getElem?_eq_getElem hlt) hk
  rw [hf] at k1
  rw [Option.some.inj k1]
  exact ⟨l', u', g, rfl, k3, fun hg => (hpos hg).trans_le k2⟩

/-- **C147** Consequently, as soon as the tree has two leaves, the implied space of every leaf is strictly smaller than the space. -/
theorem C147_smaller {P : Nat} {p : DT ℝ} (hv : ValidDT P p) (hnum : NumericalSpace p.cfg.space) (hmin : 1 ≤ p.minPoints) {d : Int} (hd : 0 < d)
    {leaves : List (Node ℝ)} (hL : (dtPartition p d).2 = .ok leaves) (h2 : 2 ≤ leaves.length) {m : Node ℝ} (hm : m ∈ leaves) {out : ConfigSpace ℝ}
    (hout : regionImplied p.cfg.space m.conds = .ok out) : volume out < volume p.cfg.space ∧ out ≠ p.cfg.space := by
  obtain ⟨L, outs, e1, e2, e3, e4⟩ := C147_tiling hv hnum hmin hd
  obtain rfl := Except.ok.inj (hL.symm.trans e1)
  have hF := Py.mapM_eq_ok.1 e2
  have key : ∀ (L : List (Node ℝ)) (outs : List (ConfigSpace ℝ)), List.Forall₂ (fun m o => regionImplied p.cfg.space m.conds = .ok o) L outs →
      (∀ o ∈ outs, 0 < volume o) → m ∈ L → (2 ≤ L.length → volume out < (outs.map volume).sum) ∧ volume out ≤ (outs.map volume).sum := by
    intro L outs hF
    induction hF with
    | nil => intro _ h; cases h
    | @cons a o L outs h1 h2 ih =>
      intro hpos hmem
      have hsum : 0 ≤ (outs.map volume).sum := List.sum_nonneg fun x hx => by
        obtain ⟨o', ho', rfl⟩ := List.mem_map.1 hx
        exact (hpos o' (by simp [ho'])).le
      have hpo := hpos o (by simp)
      rw [List.map_cons, List.sum_cons]
      rcases List.mem_cons.1 hmem with rfl | hmem
      · obtain rfl := Except.ok.inj (hout.symm.trans h1)
        refine ⟨fun hlen => ?_, by linarith⟩
        cases h2 with
        | nil => simp at hlen
        | @cons a' o' L' outs' _ _ =>
          have h5 : 0 ≤ (outs'.map volume).sum := List.sum_nonneg fun x hx => by
            obtain ⟨o', ho', rfl⟩ := List.mem_map.1 hx
            exact (hpos o' (by simp [ho'])).le
          have := hpos o' (by simp)
          rw [List.map_cons, List.sum_cons]
          linarith
      · have := (ih (fun o' ho' => hpos o' (by simp [ho'])) hmem).2
        exact ⟨fun _ => by linarith, by linarith⟩
  have := (key leaves outs hF e4 hm).1 h2
  rw [e3] at this
  exact ⟨this, fun e => by rw [e] at this; exact lt_irrefl _ this⟩

section concrete

/-- half of [-5, 5] × [0, 1] -/
example : volume [⟨"x1", .float (-5) 5 false⟩, ⟨"x2", .float 0 1 false⟩] = 10 ∧
    volume [⟨"x1", .float (-5) (5/2) false⟩, ⟨"x2", .float 0 1 false⟩] + volume [⟨"x1", .float (5/2) 5 false⟩, ⟨"x2", .float 0 1 false⟩] = 10 := by
  norm_num [volume, axisLength, Hp.numerical?]

/-- a logarithmic axis: [1, 100] is cut at 10 into two parts of the same length -/
example : axisLength ⟨"c", .float 1 10 true⟩ = axisLength ⟨"c", .float 10 100 true⟩ := by
  have : Real.log 100 = 2 * Real.log 10 := by rw [show (100 : ℝ) = 10 ^ 2 by norm_num, Real.log_pow]; norm_num
  simp only [axisLength, Hp.numerical?, this, Real.log_one]
  ring

section
local instance transcQ : Transc ℚ := ⟨id, id⟩

/-- the two leaves of `exDt` (one split) imply the two parts of the space -/
example : (exDt.bind fun p => (dtPartition p 1).2.bind fun L => L.mapM fun m =>
    regionImplied [⟨"x1", .float (-5) 5 false⟩, ⟨"x2", .float 0 1 false⟩] m.conds) =
    .ok [[⟨"x1", .float (-5/2) 5 false⟩, ⟨"x2", .float 0 1 false⟩], [⟨"x1", .float (-5) (-5/2) false⟩, ⟨"x2", .float 0 1 false⟩]] := by
  decide +kernel
end
end concrete

end PyPDP
