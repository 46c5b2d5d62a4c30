/-
Specification vocabulary for the random forest partitioner.
-/
import Verif.Model.Forest
import Verif.Spec.Partitioner

namespace PyPDP.Spec
variable {K : Type}

/-- A forest as the constructors leave it (its trees may already be there): every hyperparameter of the space that is not selected may be
split; an ICE object that is already there was made with the same arguments. -/
structure ValidRF (p : RF K) : Prop where
  cfg : ValidCfg p.cfg
  not_centered : p.cfg.centered = false
  possible : p.possible = p.cfg.space.filter fun hp => decide (hp.name ∉ p.cfg.selected.map Hp.name)
  ice : ∀ i, p.ice = some i → i.cfg.space = p.cfg.space ∧ i.cfg.predict = p.cfg.predict ∧ i.cfg.selected = p.cfg.selected ∧
    i.cfg.samples = p.cfg.samples ∧ i.cfg.perAxis = p.cfg.perAxis

/-- What the random generator may return. -/
structure ValidDraw (p : RF K) (size : Nat) (d : ForestDraw) : Prop where
  size : d.indices.length = size
  range : ∀ i ∈ d.indices, i < p.cfg.samples.length
  mask : d.mask.length = p.possible.length
  choice : d.choice < p.possible.length

/-- the curves of an ICE calculation, one for each sample -/
def dataCurves (d : IceData K) : List (Curve K) := d.x.zip (d.y.zip d.v)

/-- `t` is a tree for the draw `w`: it has the space and the selection of the forest; its root holds the drawn curves in the order of the
draw; it splits on the drawn hyperparameters
(exactly one, if the mask is all zero); its leaves are those of the greedily grown tree. -/
structure IsForestTree [Field K] [LinearOrder K] (p : RF K) (own : List (Curve K)) (N minPoints P : Nat) (maxDepth : Int) (w : ForestDraw) (t : DT K) :
    Prop where
  space : t.cfg.space = p.cfg.space
  selected : t.cfg.selected = p.cfg.selected
  root : List.Forall₂ (fun i c => own[i]? = some c) w.indices (curves t.root)
  depth : t.root.depth = 0
  conds : t.root.conds = []
  splits_ne : t.possible ≠ []
  splits_sub : t.possible.Sublist p.possible
  splits_mask : (∃ j : Nat, w.mask[j]? = some true) → ∀ (j : Nat) hp, p.possible[j]? = some hp → (hp ∈ t.possible ↔ w.mask[j]? = some true)
  splits_choice : (∀ j : Nat, w.mask[j]? ≠ some true) → ∃ hp, p.possible[w.choice]? = some hp ∧ t.possible = [hp]
  leaves : Greedy p.cfg.space t.possible N minPoints P maxDepth t.root t.leaves

/-- both configurations are in one leaf of the tree -/
def SharesLeaf [Field K] [LinearOrder K] [Transc K] (t : DT K) (a b : Config K) : Prop :=
  ∃ leaf ∈ t.leaves, containsAll t.cfg.space leaf.conds a = .ok true ∧ containsAll t.cfg.space leaf.conds b = .ok true

open Classical in
/-- number of trees in which the two configurations are in one leaf -/
noncomputable def votes [Field K] [LinearOrder K] [Transc K] (trees : List (DT K)) (a b : Config K) : Nat :=
  trees.countP fun t => decide (SharesLeaf t a b)

end PyPDP.Spec
