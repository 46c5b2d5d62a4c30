/-
Scaling, split conditions and the decision tree once more, this time in machine arithmetic: nothing is assumed about the results of
`+`, `-`, `*`, `/`, `np.log`, `math.exp`, `np.mean`, `np.sum` and `np.linspace` (rounding, overflow, nan, order of summation), they are
fields of `Machine`. Only comparisons have laws, see `Spec/Machine.lean`. The exact models in `Model/Utils.lean` and
`Model/Partitioner.lean` are the instance `exactMachine`.

Not repeated here: the construction of the partitioner (the ICE calculation), plotting.
-/
import Verif.Model.Partitioner

namespace PyPDP

/-- The numbers of a machine (float64 and what numpy computes with it). -/
class Machine (F : Type) where
  /-- `a <= b`, `a < b` -/
  le : F → F → Bool
  lt : F → F → Bool
  /-- `a < np.inf` -/
  belowInf : F → Bool
  ofInt : Int → F
  add : F → F → F
  sub : F → F → F
  mul : F → F → F
  div : F → F → F
  /-- `np.log` -/
  log : F → F
  /-- `math.exp`, which may raise -/
  exp : F → Py F
  /-- `np.sum((v - np.mean(v, axis=0)) ** 2, axis=None).item()` (partitioner/__init__.py:57-60) -/
  loss : List (List F) → F
  /-- `np.linspace(0, 1, num=n + 2)[1:-1]` (decision_tree_partitioner.py:284) -/
  splitVals : Nat → List F

variable {F : Type} [Machine F]

/-- a nan is not `<=` itself -/
def machineNan (a : F) : Bool := !Machine.le a a

/-- `np.minimum`: nan if one of the two is nan -/
def npMinimum (a b : F) : F := if machineNan a then a else if machineNan b then b else if Machine.le a b then a else b

/-- `np.maximum` -/
def npMaximum (a b : F) : F := if machineNan a then a else if machineNan b then b else if Machine.le a b then b else a

/-- utils/utils.py:58-73 `scale_float` -/
def scaleFloatM (value : F) (cs : ConfigSpace F) (hpName : String) : Py F := do
  let csHp ← cs.get hpName                                                                -- 63
  let (lower, upper, log) ← csHp.bounds
  let normalized :=
    if log then                                                                           -- 64-68
      Machine.div (Machine.sub (Machine.log value) (Machine.log lower)) (Machine.sub (Machine.log upper) (Machine.log lower))
    else Machine.div (Machine.sub value lower) (Machine.sub upper lower)                  -- 70
  return npMaximum (Machine.ofInt 0) (npMinimum (Machine.ofInt 1) normalized)             -- 71-73

/-- utils/utils.py:76-90 `unscale_float` -/
def unscaleFloatM (t : F) (cs : ConfigSpace F) (hpName : String) : Py F := do
  let csHp ← cs.get hpName                                                                -- 81
  let (lower, upper, log) ← csHp.bounds
  let value ←
    if log then                                                                           -- 82-86
      Machine.exp (Machine.add (Machine.mul t (Machine.sub (Machine.log upper) (Machine.log lower))) (Machine.log lower))
    else .ok (Machine.add (Machine.mul t (Machine.sub upper lower)) lower)                -- 88
  return npMinimum upper (npMaximum lower value)                                          -- 89

/-- decision_tree_partitioner.py:39-44 `SplitCondition.value` -/
def condValueM (cs : ConfigSpace F) (c : Cond F) : Py (NVal F) :=
  match c.nval with
  | .flt t => (unscaleFloatM t cs c.hp.name).map .flt
  | n => .ok n

/-- decision_tree_partitioner.py:49-52 -/
def compareFloatM (le : Option Bool) (v : Option (Val F)) (w : F) : Py Bool :=
  match v with
  | some (.num x) => .ok (if le = some true then Machine.le x w else Machine.lt w x)
  | _ => .error .type

/-- decision_tree_partitioner.py:54 -/
def equalsValueM (n : NVal F) (v : Option (Val F)) : Bool :=
  match n, v with
  | .int i, some (.num x) => Machine.le (Machine.ofInt i) x && Machine.le x (Machine.ofInt i)
  | .str s, some (.str s') => decide (s = s')
  | _, _ => false

/-- decision_tree_partitioner.py:46-54 `is_satisfied` -/
def isSatisfiedM (cs : ConfigSpace F) (c : Cond F) (cfg : Config F) : Py Bool := do
  let v := cfg.get? c.hp.name
  let w ← condValueM cs c
  match w with
  | .flt w => compareFloatM c.lessEqual v w
  | n => .ok (equalsValueM n v)

/-- decision_tree_partitioner.py:91-95 `DTRegion.__contains__` -/
def containsAllM (cs : ConfigSpace F) : List (Cond F) → Config F → Py Bool
  | [], _ => .ok true
  | c :: rest, cfg => do
    let b ← isSatisfiedM cs c cfg
    if b then containsAllM cs rest cfg else .ok false

/-- the threshold as a number -/
def NVal.toNumM : NVal F → Py F
  | .flt t => .ok t
  | .int i => .ok (Machine.ofInt i)
  | .str _ => .error .type

/-- decision_tree_partitioner.py:130-133 -/
def condMaskM (le : Option Bool) (t : F) (vals : List F) : List Bool :=
  if le = some true then vals.map fun a => Machine.le a t else vals.map fun a => Machine.lt t a

/-- decision_tree_partitioner.py:127-150 `filter_by_condition` -/
def filterByConditionM (cs : ConfigSpace F) (n : Node F) (c : Cond F) : Py (Node F) := do
  let idx ← cs.idx c.hp.name                                                  -- 128
  let vals ← firstValues n.x idx                                              -- 129
  let t ← c.nval.toNumM
  let mask := condMaskM c.lessEqual t vals                                    -- 130-133
  mkNode (n.depth + 1) (maskSelect mask n.x) (maskSelect mask n.y) (maskSelect mask n.v) (n.conds ++ [c])   -- 135-148

/-- decision_tree_partitioner.py:158-169 `split_at_value` (the conditions are made by lines 17-33 from a float threshold and a given
`less_equal`) -/
def splitAtValueM (cs : ConfigSpace F) (n : Node F) (hp : Hp F) (t : F) : Py (Node F × Node F) := do
  let lc ← checkCond hp (.flt t) (some true)
  let l ← filterByConditionM cs n lc
  let rc ← checkCond hp (.flt t) (some false)
  let r ← filterByConditionM cs n rc
  return (l, r)

/-- decision_tree_partitioner.py:282-285 -/
def candidatesM (possible : List (Hp F)) (n : Nat) : List (Hp F × F) :=
  possible.flatMap fun hp => (Machine.splitVals n).map fun t => (hp, t)

/-- decision_tree_partitioner.py:297-300 (`none`: `best_loss` is still `np.inf`) -/
def updateBestM (best : Option (F × Node F × Node F)) (total : F) (l r : Node F) : Option (F × Node F × Node F) :=
  match best with
  | none => if Machine.belowInf total then some (total, l, r) else none
  | some b => if Machine.lt total b.1 then some (total, l, r) else some b

/-- decision_tree_partitioner.py:286-300 -/
def trySplitM (cs : ConfigSpace F) (minPoints : Nat) (n : Node F) (best : Option (F × Node F × Node F)) (cand : Hp F × F) :
    Py (Option (F × Node F × Node F)) := do
  let (l, r) ← splitAtValueM cs n cand.1 cand.2
  if l.x.length < minPoints ∨ r.x.length < minPoints then return best
  return updateBestM best (Machine.add (Machine.loss l.v) (Machine.loss r.v)) l r

/-- decision_tree_partitioner.py:276-310 `calc_best_split` -/
def calcBestSplitM (cs : ConfigSpace F) (possible : List (Hp F)) (numSplits minPoints : Nat) (n : Node F) : Py (Option (Node F × Node F)) :=
  if n.splittable then do
    let best ← (candidatesM possible numSplits).foldlM (trySplitM cs minPoints n) none
    return best.map (·.2)
  else .error .assertion

/-- decision_tree_partitioner.py:248-268 `partition` -/
def dtPartitionM (p : DT F) (maxDepth : Int) : DT F × Py (List (Node F)) :=
  if 0 < maxDepth then
    match partitionLoop (calcBestSplitM p.cfg.space p.possible p.numSplits p.minPoints) maxDepth (loopFuel maxDepth) [p.root] [] with
    | (leaves, .finished) => ({ p with leaves := leaves }, .ok leaves)
    | (leaves, .raised e) => ({ p with leaves := leaves }, .error e)
    | (leaves, .outOfFuel) => ({ p with leaves := leaves }, .error .runtime)
  else (p, .error .assertion)

/-- the loop of decision_tree_partitioner.py:272-274 -/
def firstContainingM (cs : ConfigSpace F) (cfg : Config F) : List (Node F) → Py (Option (Node F))
  | [] => .ok none
  | leaf :: rest => do
    let b ← containsAllM cs leaf.conds cfg
    if b then .ok (some leaf) else firstContainingM cs cfg rest

/-- decision_tree_partitioner.py:270-274 `get_incumbent_region` -/
def dtIncumbentRegionM (p : DT F) (cfg : Config F) : Py (Option (Node F)) :=
  match p.leaves with
  | [] => .error .assertion
  | _ => firstContainingM p.cfg.space cfg p.leaves

/-- Exact arithmetic as a machine (`np.log` of numbers that have none is left to `Transc.log`). -/
@[reducible] def exactMachine (K : Type) [Field K] [LinearOrder K] [Transc K] : Machine K where
  le a b := decide (a ≤ b)
  lt a b := decide (a < b)
  belowInf _ := true
  ofInt i := (i : K)
  add := (· + ·)
  sub := (· - ·)
  mul := (· * ·)
  div := (· / ·)
  log := Transc.log
  exp a := .ok (Transc.exp a)
  loss := regionLoss
  splitVals := splitVals

end PyPDP
