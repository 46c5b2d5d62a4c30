/-
Model of pyPDP/algorithms/__init__.py and pyPDP/algorithms/ice.py (plotting: Model/Plotting).

Arrays are lists in C order. `predict` is the surrogate at the time of a calculation. Not modelled: missing
values (nan) in the samples. Shared memory: Model/Memory.
-/
import Verif.Model.Surrogate
import Verif.Model.Seeding

namespace PyPDP
variable {K : Type}

/-! ### Algorithm -/

/-- Attributes of an `Algorithm` / `ICE` object that its calculation reads (algorithms/__init__.py:18-26, ice.py:172). `numSamples`
and `numGrid` are stored by the constructor. -/
structure IceCfg (K : Type) where
  space : ConfigSpace K
  selected : List (Hp K)
  samples : List (List K)
  numSamples : Nat
  perAxis : Nat
  numGrid : Nat
  centered : Bool
  predict : Predict K

/-- algorithms/__init__.py:11-26 `Algorithm.__init__` (the config space object itself: Model/Seeding). -/
def algorithmInit (space : ConfigSpace K) (predict : Predict K) (sel : Selection K) (samples : List (List K)) (perAxis : Nat) :
    Py (IceCfg K) := do
  let selected ← convertHyperparameters sel space
  let numGrid := perAxis ^ selected.length
  return ⟨space, selected, samples, samples.length, perAxis, numGrid, false, predict⟩

/-- algorithms/__init__.py:36-39: the sample array. Iterating over a bare configuration yields names, which have no `get_array`
(AttributeError). -/
def samplesOf : Draws (Config K) → Py (List (List K))
  | .one _ => .error .attribute
  | .many l => .ok (l.map Config.vector)

/-- algorithms/__init__.py:29-46 `from_random_points` on the config space of the component with handle `h`, for an integer seed:
the copy (line 35) is a new config space object, seeded with `seed` itself; the constructor makes another one (`holderInit`).
Result: the new world and the samples. -/
def fromRandomPoints {S : Type} (rng : Rng K S (Draws (Config K))) (md5 : String → Nat) (w : World K S) (h : Nat) (cls : String)
    (num : Int) (seed : Nat) (time : Int) : World K S × Py (List (List K)) :=
  match w.handles[h]? with
  | none => (w, .error .attribute)
  | some r =>
    match w.spaces[r]? with
    | none => (w, .error .attribute)
    | some sp =>
      let (draws, st) := rng.draw sp.hps (rng.seed sp.hps seed) num           -- 35-38
      let w1 : World K S := { w with spaces := w.spaces ++ [⟨sp.hps, st⟩] }
      match samplesOf draws with
      | .error e => (w1, .error e)
      | .ok x => (holderInit rng md5 w1 h cls (.int seed) time, .ok x)        -- 40-46

/-! ### the calculation -/

/-- `np.meshgrid` with its default indexing "xy" exchanges the first two axes. -/
def swap01 {α : Type} : List α → List α
  | a :: b :: rest => b :: a :: rest
  | l => l

/-- ordered cartesian product, the last coordinate runs fastest -/
def tuples {α : Type} (axis : List α) : Nat → List (List α)
  | 0 => [[]]
  | k + 1 => axis.flatMap fun v => (tuples axis k).map (v :: ·)

/-- ice.py:234-239 `grid_points`: `meshgrid` of `k` equal axes, stacked, flattened and transposed; `np.stack` of no arrays is a
ValueError. -/
def gridPoints [Field K] (k perAxis : Nat) : Py (List (List K)) :=
  if k = 0 then .error .value else .ok ((tuples (linspace 0 1 perAxis) k).map swap01)

/-- `a.transpose((0, 2, 1))` for an array of shape `(n, F, P)` (ice.py:213). -/
def transpose021 [Zero K] (F P : Nat) (a : List (List (List K))) : List (List (List K)) :=
  a.map fun m => (List.range P).map fun p => (List.range F).map fun f => entry m f p

/-- `row[idx] = vals`, one entry after the other. -/
def assignRow (idx : List Nat) (vals row : List K) : List K := (idx.zip vals).foldl (fun r p => r.set p.1 p.2) row

/-- `x_ice[:, :, idx] = x_s` (ice.py:214): the rows of `x_s` are matched with axis 1 (a single row is broadcast), ValueError if
the numbers differ. -/
def assignGrid (P : Nat) (idx : List Nat) (grid : List (List K)) (x : List (List (List K))) : Py (List (List (List K))) :=
  if grid.length = P then .ok (x.map fun m => List.zipWith (fun g r => assignRow idx g r) grid m)
  else
    match grid with
    | [g] => .ok (x.map fun m => m.map fun r => assignRow idx g r)
    | _ => .error .value

/-- ice.py:224-225: subtract the first value of every curve. -/
def centerRows [Sub K] [Zero K] (P : Nat) (y : List (List K)) : Py (List (List K)) :=
  if P = 0 then .error .index else .ok (y.map fun row => row.map fun v => v - row.getD 0 0)

/-- The three arrays of one calculation. -/
structure IceData (K : Type) where
  x : List (List (List K))
  y : List (List K)
  v : List (List K)
  deriving DecidableEq, Repr

/-- ice.py:223-225: centering, if switched on. -/
def maybeCenter [Sub K] [Zero K] (centered : Bool) (P : Nat) (y : List (List K)) : Py (List (List K)) :=
  if centered then centerRows P y else .ok y

/-- ice.py:200-232 `_calculate` for given grid points (without storing the result). -/
def iceCalc [Field K] (c : IceCfg K) (grid : List (List K)) : Py (IceData K) := do
  let idx ← getSelectedIdx c.selected c.space                                             -- 204
  let F := c.space.length                                                                 -- 205
  let x ← reshape3 c.numSamples F c.numGrid (repeatFlat c.numGrid c.samples.flatten)       -- 211-212
  let x ← assignGrid c.numGrid idx grid (transpose021 F c.numGrid x)                      -- 213-214
  let (means, stds) ← c.predict x.flatten                                                 -- 217
  let y ← reshape2 c.numSamples c.numGrid means                                           -- 218
  let s ← reshape2 c.numSamples c.numGrid stds                                            -- 219
  let v := s.map fun row => row.map fun t => t ^ 2                                        -- 220
  let y ← maybeCenter c.centered c.numGrid y                                              -- 223-225
  if y.length = c.numSamples ∧ v.length = c.numSamples then .ok ⟨x, y, v⟩ else .error .assertion   -- 227

/-! ### the ICE object -/

/-- An `ICE` object: attributes, the cached `grid_points`, the cached arrays. -/
structure IceState (K : Type) where
  cfg : IceCfg K
  grid : Option (List (List K))
  x : Option (List (List (List K)))
  y : Option (List (List K))
  v : Option (List (List K))

/-- ice.py:159-177 `ICE.__init__` -/
def iceInit (cfg : IceCfg K) : IceState K := ⟨cfg, none, none, none, none⟩

/-- ice.py:192-198 `reset` -/
def iceReset (s : IceState K) : IceState K := { s with x := none, y := none, v := none }

/-- reading the cached property `grid_points` -/
def readGrid [Field K] (s : IceState K) : IceState K × Py (List (List K)) :=
  match s.grid with
  | some g => (s, .ok g)
  | none =>
    match gridPoints s.cfg.selected.length s.cfg.perAxis with
    | .error e => (s, .error e)
    | .ok g => ({ s with grid := some g }, .ok g)

/-- ice.py:200-232 `_calculate` -/
def iceCalculate [Field K] (s : IceState K) : IceState K × Py (IceData K) :=
  match readGrid s with
  | (s1, .error e) => (s1, .error e)
  | (s1, .ok g) =>
    match iceCalc s1.cfg g with
    | .error e => (s1, .error e)
    | .ok d => ({ s1 with x := some d.x, y := some d.y, v := some d.v }, .ok d)

/-- ice.py:241-245 -/
def readX [Field K] (s : IceState K) : IceState K × Py (List (List (List K))) :=
  match s.x with
  | some x => (s, .ok x)
  | none => let (s', r) := iceCalculate s; (s', r.map IceData.x)

/-- ice.py:247-251 -/
def readY [Field K] (s : IceState K) : IceState K × Py (List (List K)) :=
  match s.y with
  | some y => (s, .ok y)
  | none => let (s', r) := iceCalculate s; (s', r.map IceData.y)

/-- ice.py:253-257 -/
def readV [Field K] (s : IceState K) : IceState K × Py (List (List K)) :=
  match s.v with
  | some v => (s, .ok v)
  | none => let (s', r) := iceCalculate s; (s', r.map IceData.v)

/-- What a user can do with an ICE object. -/
inductive IceOp (K : Type)
  | readX | readY | readV | readGrid
  | reset
  | setCentered (b : Bool)
  | setSamples (a : List (List K))
  | setPerAxis (g : Nat)
  /-- the surrogate is fitted again -/
  | refit (p : Predict K)

def iceStep [Field K] (s : IceState K) : IceOp K → IceState K
  | .readX => (readX s).1
  | .readY => (readY s).1
  | .readV => (readV s).1
  | .readGrid => (readGrid s).1
  | .reset => iceReset s
  | .setCentered b => { s with cfg := { s.cfg with centered := b } }
  | .setSamples a => { s with cfg := { s.cfg with samples := a } }
  | .setPerAxis g => { s with cfg := { s.cfg with perAxis := g } }
  | .refit p => { s with cfg := { s.cfg with predict := p } }

def iceRun [Field K] (s : IceState K) (ops : List (IceOp K)) : IceState K := ops.foldl iceStep s

/-! ### single curves -/

/-- ice.py:18-37 `ICECurve` (data attributes) -/
structure IceCurve (K : Type) where
  space : ConfigSpace K
  selected : List (Hp K)
  x : List (List K)
  y : List K
  v : List K
  deriving DecidableEq, Repr

/-- numpy indexing `a[i]` along the first axis with a possibly negative index. -/
def npIndex {α : Type} (a : List α) (i : Int) : Py α :=
  let j := if i < 0 then i + a.length else i
  if j < 0 then .error .index else pyGet a j.toNat

/-- ice.py:182-190 `__getitem__` -/
def iceGet [Field K] (s : IceState K) (i : Int) : IceState K × Py (IceCurve K) :=
  match readX s with
  | (s1, .error e) => (s1, .error e)
  | (s1, .ok xs) =>
    match npIndex xs i with
    | .error e => (s1, .error e)
    | .ok x =>
      match readY s1 with
      | (s2, .error e) => (s2, .error e)
      | (s2, .ok ys) =>
        match npIndex ys i with
        | .error e => (s2, .error e)
        | .ok y =>
          match readV s2 with
          | (s3, .error e) => (s3, .error e)
          | (s3, .ok vs) =>
            match npIndex vs i with
            | .error e => (s3, .error e)
            | .ok v => (s3, .ok ⟨s.cfg.space, s.cfg.selected, x, y, v⟩)

/-- `np.min(x, axis=0)` / `np.max(x, axis=0)` over rows of length `F`; ValueError for no rows. -/
def colFold (op : K → K → K) : List (List K) → Py (List K)
  | [] => .error .value
  | r :: rs => .ok (rs.foldl (List.zipWith op) r)

/-- constructors of ConfigSpace called in ice.py:150: a float range needs `lower < upper` (and `0 < lower` on a log scale), an
integer range integral bounds, otherwise ValueError. (Simplified: ConfigSpace accepts 10⁻⁸ above an integer and truncates; modelled in
Model/RoundedImplied.) -/
def rebuildHp [Field K] [LinearOrder K] [FloorRing K] (hp : Hp K) (lo hi : K) : Py (Hp K) :=
  match hp.kind with
  | .float _ _ g =>
    if hi ≤ lo ∨ (g = true ∧ lo ≤ 0) then .error .value else .ok ⟨hp.name, .float lo hi g⟩
  | .integer _ _ g =>
    if ((⌊lo⌋ : Int) : K) ≠ lo ∨ ((⌊hi⌋ : Int) : K) ≠ hi ∨ hi ≤ lo ∨ (g = true ∧ lo ≤ 0) then .error .value
    else .ok ⟨hp.name, .integer lo hi g⟩
  | _ => .error .assertion                                                    -- 146

/-- ice.py:146-150: one hyperparameter of the implied space -/
def impliedHp [Field K] [LinearOrder K] [FloorRing K] (hp : Hp K) (lo hi : Val K) : Py (Hp K) :=
  match hp.numerical?, lo, hi with
  | some _, .num a, .num b => if a = b then .ok ⟨hp.name, .constant (.num a)⟩ else rebuildHp hp a b
  | _, _, _ => .error .assertion

/-- the loop of ice.py:145-151 over `zip(hps, min_values, max_values)` -/
def impliedLoop [Field K] [LinearOrder K] [FloorRing K] : ConfigSpace K → List (Val K) → List (Val K) → Py (ConfigSpace K)
  | hp :: hps, lo :: los, hi :: his => do
    let h ← impliedHp hp lo hi
    let rest ← impliedLoop hps los his
    return h :: rest
  | _, _, _ => .ok []

/-- the array behind an `NdArr` with one axis -/
def NdArr.row {α : Type} : NdArr α → List α
  | .d1 a => a
  | _ => []

/-- ice.py:139-153 `ICECurve.implied_config_space` -/
def impliedConfigSpace [Field K] [LinearOrder K] [FloorRing K] [Transc K] (c : IceCurve K) : Py (ConfigSpace K) := do
  let mins ← colFold min c.x
  let maxs ← colFold max c.x
  let lo ← unscale DType.float (.d1 mins) c.space
  let hi ← unscale DType.float (.d1 maxs) c.space
  impliedLoop c.space lo.row hi.row

end PyPDP
