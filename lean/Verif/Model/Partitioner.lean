/-
Model of pyPDP/algorithms/partitioner/__init__.py and decision_tree_partitioner.py (plotting: Model/Plotting).

Simplifications: regions do not carry their own copy of the config space (all copies have the same hyperparameters; their random
state is never used), nor the pointers `parent`, `left_child`, `right_child` (written, never read). `min_points_per_node` and
`num_splits_per_axis` are natural numbers. An empty region keeps no second axis in this model, so the shape assertion of
`Region.__init__` is checked row by row (numpy's boolean indexing keeps the other axes).
-/
import Verif.Model.Pdp

namespace PyPDP
variable {K : Type}

/-! ### split conditions -/

/-- A threshold: a Python float, or a value of another type. -/
inductive NVal (K : Type)
  | flt (t : K)
  | int (i : Int)
  | str (s : String)
  deriving DecidableEq, Repr

/-- decision_tree_partitioner.py:16-33 `SplitCondition` (the hyperparameter is used through its name only). -/
structure Cond (K : Type) where
  hp : Hp K
  nval : NVal K
  lessEqual : Option Bool
  deriving DecidableEq, Repr

/-- the argument `value` turned into `normalized_value` by `scale_float` (line 27); a string cannot be scaled. -/
def scaleArg [Field K] [LinearOrder K] [Transc K] (cs : ConfigSpace K) (name : String) : Val K → Py K
  | .num v => scaleFloat v cs name
  | .str _ => do
    let h ← cs.get name
    let _ ← h.bounds
    .error .type

/-- line 29 -/
def checkCond (hp : Hp K) (n : NVal K) (le : Option Bool) : Py (Cond K) :=
  match n, le with
  | .flt _, none => .error .assertion
  | n, le => .ok ⟨hp, n, le⟩

/-- decision_tree_partitioner.py:17-33 `SplitCondition.__init__` -/
def mkCond [Field K] [LinearOrder K] [Transc K] (cs : ConfigSpace K) (hp : Hp K) (value : Option (Val K)) (normalized : Option (NVal K))
    (le : Option Bool) : Py (Cond K) :=
  match value, normalized with
  | none, none => .error .assertion                                 -- 24
  | some _, some _ => .error .assertion                             -- 25
  | none, some n => checkCond hp n le
  | some v, none => do
    let t ← scaleArg cs hp.name v                                   -- 27
    checkCond hp (.flt t) le

/-- decision_tree_partitioner.py:39-44 `value` -/
def condValue [Field K] [LinearOrder K] [Transc K] (cs : ConfigSpace K) (c : Cond K) : Py (NVal K) :=
  match c.nval with
  | .flt t => (unscaleFloat t cs c.hp.name).map .flt
  | n => .ok n

/-- `config_value <= w` or `config_value > w`; TypeError for a missing (None) or non-numeric value. -/
def compareFloat [LinearOrder K] (le : Option Bool) (v : Option (Val K)) (w : K) : Py Bool :=
  match v with
  | some (.num x) => .ok (if le = some true then decide (x ≤ w) else decide (w < x))
  | _ => .error .type

/-- `self.value == config_value` for a value that is not a float -/
def equalsValue [Field K] [DecidableEq K] (n : NVal K) (v : Option (Val K)) : Bool :=
  match n, v with
  | .int i, some (.num x) => decide ((i : K) = x)
  | .str s, some (.str s') => decide (s = s')
  | _, _ => false

/-- decision_tree_partitioner.py:46-54 `is_satisfied` -/
def isSatisfied [Field K] [LinearOrder K] [Transc K] (cs : ConfigSpace K) (c : Cond K) (cfg : Config K) : Py Bool := do
  let v := cfg.get? c.hp.name
  let w ← condValue cs c
  match w with
  | .flt w => compareFloat c.lessEqual v w
  | n => .ok (equalsValue n v)

/-- decision_tree_partitioner.py:91-95 `DTRegion.__contains__` -/
def containsAll [Field K] [LinearOrder K] [Transc K] (cs : ConfigSpace K) : List (Cond K) → Config K → Py Bool
  | [], _ => .ok true
  | c :: rest, cfg => do
    let b ← isSatisfied cs c cfg
    if b then containsAll cs rest cfg else .ok false

/-! ### regions -/

/-- partitioner/__init__.py:22-45 `Region` with decision_tree_partitioner.py:71-89 `DTRegion` -/
structure Node (K : Type) where
  depth : Nat
  x : List (List (List K))
  y : List (List K)
  v : List (List K)
  conds : List (Cond K)
  deriving DecidableEq, Repr

/-- the second axes agree row by row (partitioner/__init__.py:45) -/
def rowsAgree (x : List (List (List K))) (y v : List (List K)) : Bool :=
  decide (x.map List.length = y.map List.length ∧ y.map List.length = v.map List.length)

/-- the constructors with their assertions (partitioner/__init__.py:44-45) -/
def mkNode (depth : Nat) (x : List (List (List K))) (y v : List (List K)) (conds : List (Cond K)) : Py (Node K) :=
  if x.length = y.length ∧ y.length = v.length ∧ rowsAgree x y v = true then .ok ⟨depth, x, y, v, conds⟩ else .error .assertion

/-- partitioner/__init__.py:54-60 `loss`. (An empty region: the mean is nan, but there is nothing to sum, so 0.) -/
def regionLoss [Field K] (v : List (List K)) : K :=
  match meanRows v with
  | .ok m => (v.map fun row => (List.zipWith (fun a b => (a - b) ^ 2) row m).sum).sum
  | .error _ => 0

/-- partitioner/__init__.py:101-114 `pdp_as_ice_curve` -/
def regionPdp [Field K] (space : ConfigSpace K) (selected : List (Hp K)) (n : Node K) : Py (IceCurve K) := do
  let x ← meanAxis0 n.x
  let y ← meanRows n.y
  let v ← meanRows n.v
  return ⟨space, selected, x, y, v⟩

/-- `self.x_points[:, 0, idx]` (decision_tree_partitioner.py:129) -/
def firstValues (x : List (List (List K))) (idx : Nat) : Py (List K) :=
  x.mapM fun m => do
    let r ← pyGet m 0
    pyGet r idx

/-- the numeric value a float array is compared with; a string cannot be compared (numpy raises a TypeError). -/
def NVal.toNum [IntCast K] : NVal K → Py K
  | .flt t => .ok t
  | .int i => .ok (i : K)
  | .str _ => .error .type

/-- decision_tree_partitioner.py:130-133 -/
def condMask [LinearOrder K] (le : Option Bool) (t : K) (vals : List K) : List Bool :=
  if le = some true then vals.map fun a => decide (a ≤ t) else vals.map fun a => decide (t < a)

/-- decision_tree_partitioner.py:127-150 `filter_by_condition` -/
def filterByCondition [Field K] [LinearOrder K] (cs : ConfigSpace K) (n : Node K) (c : Cond K) : Py (Node K) := do
  let idx ← cs.idx c.hp.name                                                  -- 128
  let vals ← firstValues n.x idx                                              -- 129
  let t ← c.nval.toNum
  let mask := condMask c.lessEqual t vals                                     -- 130-133
  mkNode (n.depth + 1) (maskSelect mask n.x) (maskSelect mask n.y) (maskSelect mask n.v) (n.conds ++ [c])   -- 135-148

/-- decision_tree_partitioner.py:158-169 `split_at_value` -/
def splitAtValue [Field K] [LinearOrder K] [Transc K] (cs : ConfigSpace K) (n : Node K) (hp : Hp K) (t : K) : Py (Node K × Node K) := do
  let lc ← mkCond cs hp none (some (.flt t)) (some true)
  let l ← filterByCondition cs n lc
  let rc ← mkCond cs hp none (some (.flt t)) (some false)
  let r ← filterByCondition cs n rc
  return (l, r)

/-- decision_tree_partitioner.py:152-153 `is_splittable` -/
def Node.splittable (n : Node K) : Bool := decide (1 < n.x.length)

/-! ### the tree -/

/-- decision_tree_partitioner.py:284: `np.linspace(0, 1, num=n + 2)[1:-1]` -/
def splitVals [Field K] (n : Nat) : List K := ((linspace 0 1 (n + 2)).drop 1).dropLast

/-- the two loops of decision_tree_partitioner.py:282-285 as one list -/
def candidates [Field K] (possible : List (Hp K)) (n : Nat) : List (Hp K × K) :=
  possible.flatMap fun hp => (splitVals n).map fun t => (hp, t)

/-- decision_tree_partitioner.py:297-300 (`none` = `best_loss` is still `np.inf`) -/
def updateBest [LinearOrder K] (best : Option (K × Node K × Node K)) (total : K) (l r : Node K) : Option (K × Node K × Node K) :=
  match best with
  | none => some (total, l, r)
  | some b => if total < b.1 then some (total, l, r) else some b

/-- decision_tree_partitioner.py:286-300: one pass of the loop body -/
def trySplit [Field K] [LinearOrder K] [Transc K] (cs : ConfigSpace K) (minPoints : Nat) (n : Node K)
    (best : Option (K × Node K × Node K)) (cand : Hp K × K) : Py (Option (K × Node K × Node K)) := do
  let (l, r) ← splitAtValue cs n cand.1 cand.2
  if l.x.length < minPoints ∨ r.x.length < minPoints then return best
  return updateBest best (regionLoss l.v + regionLoss r.v) l r

/-- decision_tree_partitioner.py:276-310 `calc_best_split` -/
def calcBestSplit [Field K] [LinearOrder K] [Transc K] (cs : ConfigSpace K) (possible : List (Hp K)) (numSplits minPoints : Nat)
    (n : Node K) : Py (Option (Node K × Node K)) :=
  if n.splittable then do
    let best ← (candidates possible numSplits).foldlM (trySplit cs minPoints n) none
    return best.map (·.2)
  else .error .assertion

/-- How the loop of `partition` ends. -/
inductive LoopEnd
  | finished
  | raised (e : PyErr)
  /-- the fuel of the model is used up (never happens, `C51_terminates`) -/
  | outOfFuel
  deriving DecidableEq, Repr

/-- decision_tree_partitioner.py:255-266: the loop. `queue` is a Python list, `pop()` takes its last element; here the list is kept in
reverse (the head is the last element). `split` is `calc_best_split`. -/
def partitionLoop (split : Node K → Py (Option (Node K × Node K))) (maxDepth : Int) :
    Nat → List (Node K) → List (Node K) → List (Node K) × LoopEnd
  | 0, _, leaves => (leaves, .outOfFuel)
  | _ + 1, [], leaves => (leaves, .finished)
  | fuel + 1, node :: queue, leaves =>
    if node.splittable = false ∨ maxDepth ≤ node.depth then partitionLoop split maxDepth fuel queue (leaves ++ [node])
    else
      match split node with
      | .error e => (leaves, .raised e)
      | .ok none => partitionLoop split maxDepth fuel queue (leaves ++ [node])
      | .ok (some (l, r)) => partitionLoop split maxDepth fuel (r :: l :: queue) leaves

/-- A `DecisionTreePartitioner` -/
structure DT (K : Type) where
  cfg : IceCfg K
  possible : List (Hp K)
  numSplits : Nat
  minPoints : Nat
  ice : IceState K
  root : Node K
  leaves : List (Node K)

/-- partitioner/__init__.py:155-158 -/
def notSplittableHps (sel : Option (Selection K)) (cs : ConfigSpace K) : Py (List (Hp K)) :=
  match sel with
  | none => .ok []
  | some s => getHyperparameters s cs

/-- partitioner/__init__.py:160-165 -/
def possibleSplits (cs : ConfigSpace K) (selected notSplittable : List (Hp K)) : List (Hp K) :=
  cs.filter fun hp => decide (hp.name ∉ selected.map Hp.name ∧ hp.name ∉ notSplittable.map Hp.name)

/-- partitioner/__init__.py:167-176 `ice` of a new partitioner -/
def ownIce (c : IceCfg K) : Py (IceState K) :=
  (algorithmInit c.space c.predict (.many (c.selected.map .hp)) c.samples c.perAxis).map iceInit

/-- the three reads of decision_tree_partitioner.py:219-221 -/
def readAll [Field K] (i : IceState K) : Py (IceState K × IceData K) := do
  let (i1, rx) := readX i
  let x ← rx
  let (i2, ry) := readY i1
  let y ← ry
  let (i3, rv) := readV i2
  let v ← rv
  return (i3, ⟨x, y, v⟩)

/-- decision_tree_partitioner.py:194-225 `DecisionTreePartitioner.__init__` with partitioner/__init__.py:132-165 -/
def dtInit [Field K] (space : ConfigSpace K) (predict : Predict K) (sel : Selection K) (samples : List (List K))
    (perAxis numSplits minPoints : Nat) (notSplittable : Option (Selection K)) : Py (DT K) := do
  let c ← algorithmInit space predict sel samples perAxis
  let ns ← notSplittableHps notSplittable space
  let possible := possibleSplits space c.selected ns
  let i ← ownIce c
  let (i, d) ← readAll i
  let root ← mkNode 0 d.x d.y d.v []
  return ⟨c, possible, numSplits, minPoints, i, root, []⟩

/-- decision_tree_partitioner.py:227-246 `from_ICE`: the given ICE object replaces the partitioner's own one *after* the root
region has been built. -/
def dtFromIce [Field K] (ice : IceState K) (numSplits minPoints : Nat) (notSplittable : Option (Selection K)) : Py (DT K) := do
  let p ← dtInit ice.cfg.space ice.cfg.predict (.many (ice.cfg.selected.map .hp)) ice.cfg.samples ice.cfg.perAxis numSplits minPoints
    notSplittable
  return { p with ice := ice }

/-- fuel that is always enough -/
def loopFuel (maxDepth : Int) : Nat := 2 ^ (maxDepth.toNat + 1)

/-- decision_tree_partitioner.py:248-268 `partition`; the result is a reference to `self.leaves`. -/
def dtPartition [Field K] [LinearOrder K] [Transc K] (p : DT K) (maxDepth : Int) : DT K × Py (List (Node K)) :=
  if 0 < maxDepth then
    match partitionLoop (calcBestSplit p.cfg.space p.possible p.numSplits p.minPoints) maxDepth (loopFuel maxDepth) [p.root] [] with
    | (leaves, .finished) => ({ p with leaves := leaves }, .ok leaves)
    | (leaves, .raised e) => ({ p with leaves := leaves }, .error e)
    | (leaves, .outOfFuel) => ({ p with leaves := leaves }, .error .runtime)
  else (p, .error .assertion)

/-- the loop of decision_tree_partitioner.py:272-274 -/
def firstContaining [Field K] [LinearOrder K] [Transc K] (cs : ConfigSpace K) (cfg : Config K) : List (Node K) → Py (Option (Node K))
  | [] => .ok none
  | leaf :: rest => do
    let b ← containsAll cs leaf.conds cfg
    if b then .ok (some leaf) else firstContaining cs cfg rest

/-- decision_tree_partitioner.py:270-274 `get_incumbent_region` (`none` = Python's None) -/
def dtIncumbentRegion [Field K] [LinearOrder K] [Transc K] (p : DT K) (cfg : Config K) : Py (Option (Node K)) :=
  if p.leaves = [] then .error .assertion else firstContaining p.cfg.space cfg p.leaves

/-! ### the implied config space of a region -/

/-- decision_tree_partitioner.py:99-105: copies of the hyperparameters, always as float ranges -/
def floatCopies : ConfigSpace K → Py (ConfigSpace K)
  | [] => .ok []
  | hp :: rest =>
    match hp.numerical? with
    | none => .error .notImplemented
    | some (l, u, g) => do
      let r ← floatCopies rest
      return ⟨hp.name, .float l u g⟩ :: r

/-- decision_tree_partitioner.py:111-116 on one hyperparameter -/
def tighten [LinearOrder K] (le : Option Bool) (w : K) (hp : Hp K) : Hp K :=
  match hp.kind with
  | .float l u g =>
    if le = some true then (if w < u then ⟨hp.name, .float l w g⟩ else hp)
    else (if l < w then ⟨hp.name, .float w u g⟩ else hp)
  | _ => hp

/-- `hp_dic[name]` changed in place -/
def modifyHp (f : Hp K → Hp K) (name : String) (cs : ConfigSpace K) : ConfigSpace K :=
  cs.map fun hp => if hp.name = name then f hp else hp

/-- decision_tree_partitioner.py:108-118: one condition -/
def applyCond [Field K] [LinearOrder K] [Transc K] (cs : ConfigSpace K) (dic : ConfigSpace K) (c : Cond K) : Py (ConfigSpace K) := do
  let _ ← dic.get c.hp.name                                                   -- 109
  let w ← condValue cs c
  match w with
  | .flt w => .ok (modifyHp (tighten c.lessEqual w) c.hp.name dic)            -- 110-116
  | _ => .error .notImplemented                                               -- 118

/-- decision_tree_partitioner.py:97-125 `DTRegion.implied_config_space`. (The bounds are assigned without any check; adding the
hyperparameters to the new space is assumed to succeed.) -/
def regionImplied [Field K] [LinearOrder K] [Transc K] (cs : ConfigSpace K) (conds : List (Cond K)) : Py (ConfigSpace K) := do
  let dic ← floatCopies cs
  conds.foldlM (applyCond cs) dic

end PyPDP
