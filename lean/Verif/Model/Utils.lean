/-
Model of pyPDP/utils/utils.py (scaling, hyperparameter selection, ranges, median distance, small helpers).
The seeding class `ConfigSpaceHolder` is in `Model/Seeding.lean`.
-/
import Verif.Model.ConfigSpace
import Mathlib.Analysis.SpecialFunctions.Log.Basic
import Mathlib.Analysis.SpecialFunctions.Pow.Real
import Mathlib.Analysis.SpecialFunctions.Log.Base
import Mathlib.Data.List.Sort

namespace PyPDP

/-- numpy's transcendental functions read as the real functions. -/
noncomputable instance : Transc ℝ := ⟨Real.exp, Real.log⟩

section scaling
variable {K : Type _} [Field K] [LinearOrder K] [Transc K]

/-- utils/utils.py:58-73 `scale_float`.
`np.log(0) = -inf` is clamped to 0 by lines 71-72; `np.log` of a negative number is nan. The division by
`upper - lower` is by a non-zero number because ConfigSpace refuses `lower >= upper`. -/
def scaleFloat (value : K) (cs : ConfigSpace K) (hpName : String) : Py K := do
  let csHp ← cs.get hpName                       -- line 63
  let (lower, upper, log) ← csHp.bounds          -- attributes read in lines 64-70
  if log then                                    -- line 64
    if value < 0 then .error .nan
    else if value = 0 then .ok 0
    else
      let logLower := Transc.log lower
      let logUpper := Transc.log upper
      let v := Transc.log value
      let normalized := (v - logLower) / (logUpper - logLower)
      .ok (max 0 (min 1 normalized))             -- lines 71-72
  else
    let normalized := (value - lower) / (upper - lower)
    .ok (max 0 (min 1 normalized))

/-- utils/utils.py:76-90 `unscale_float`. -/
def unscaleFloat (t : K) (cs : ConfigSpace K) (hpName : String) : Py K := do
  let csHp ← cs.get hpName                       -- line 81
  let (lower, upper, log) ← csHp.bounds
  let value :=
    if log then                                  -- lines 82-86
      Transc.exp (t * (Transc.log upper - Transc.log lower) + Transc.log lower)
    else t * (upper - lower) + lower             -- line 88
  .ok (min upper (max lower value))              -- line 89

end scaling

section unscaleArray
variable {K : Type _} [Field K] [LinearOrder K] [Transc K]

/-- A numpy array with one, two or three axes (others are rejected by `unscale`). -/
inductive NdArr (α : Type _)
  | d1 (a : List α)
  | d2 (a : List (List α))
  | d3 (a : List (List (List α)))
  /-- any other number of axes -/
  | dn
  deriving DecidableEq, Repr

/-- What the dtype of the input array of `unscale` decides: the number an entry stands for, the index it can be used
as (`hp.choices[k]` is a TypeError for a float `k`), and how a float is stored back into the copy
(`obj = true` once the copy has been converted to dtype object). -/
structure DType (ι K : Type _) where
  toNum : ι → K
  asIndex : ι → Option Int
  store : (obj : Bool) → K → K

/-- dtype float64. -/
def DType.float : DType K K := ⟨id, fun _ => none, fun _ x => x⟩

/-- an integer dtype: storing a float truncates towards zero unless the copy has dtype object. -/
def DType.int [FloorRing K] : DType Int K :=
  ⟨fun i => (i : K), fun i => some i,
   fun obj x => if obj then x else if 0 ≤ x then ((⌊x⌋ : Int) : K) else ((⌈x⌉ : Int) : K)⟩

/-- utils/utils.py:100-107, the numerical unscalers: log with clipping, linear *without* clipping. -/
def unscaleNum (lower upper : K) (log : Bool) (t : K) : K :=
  if log then
    min upper (max lower (Transc.exp (t * (Transc.log upper - Transc.log lower) + Transc.log lower)))
  else t * (upper - lower) + lower

/-- tuple indexing `choices[k]` with Python's negative indices. -/
def choiceAt (choices : List String) (k : Int) : Py String :=
  let j := if k < 0 then k + choices.length else k
  if j < 0 then .error .index
  else pyGet choices j.toNat

/-- utils/utils.py:100-112: the unscaler of one hyperparameter applied to one entry. `elementwise = false` for arrays
that are not two-dimensional: there the list comprehension of line 109 iterates over a scalar (1-d) or over rows
(3-d), both TypeErrors for a categorical hyperparameter. -/
def unscaleEntry {ι : Type _} (dt : DType ι K) (elementwise : Bool) (hp : Hp K) (obj : Bool) (e : ι) :
    Py (Val K) :=
  match hp.kind with
  | .float l u g => .ok (.num (dt.store obj (unscaleNum l u g (dt.toNum e))))
  | .integer l u g => .ok (.num (dt.store obj (unscaleNum l u g (dt.toNum e))))
  | .categorical choices =>
    match elementwise, dt.asIndex e with
    | true, some k => (choiceAt choices k).map .str
    | _, _ => .error .type
  | _ => .error .type                            -- line 112

/-- `x_copy[i] = unscaler(x[i])` on one innermost row: reads the original row, writes the copy. -/
def updRow {ι α : Type _} (i : Nat) (f : ι → Py α) (orig : List ι) (cur : List α) : Py (List α) :=
  match orig[i]? with
  | none => .error .index
  | some e => (f e).map (cur.set i)

/-- `zip` of two equally long lists with an exception-raising function. -/
def zipWithPy {α β γ : Type _} (f : α → β → Py γ) : List α → List β → Py (List γ)
  | a :: as, b :: bs => do
    let c ← f a b
    let cs ← zipWithPy f as bs
    return c :: cs
  | _, _ => .ok []

/-- utils/utils.py:114-121: write column `i` of the copy. -/
def updArr {ι α : Type _} (i : Nat) (f : Bool → ι → Py α) : NdArr ι → NdArr α → Py (NdArr α)
  | .d1 x, .d1 c => (updRow i (f false) x c).map .d1
  | .d2 x, .d2 c => (zipWithPy (updRow i (f true)) x c).map .d2
  | .d3 x, .d3 c => (zipWithPy (zipWithPy (updRow i (f false))) x c).map .d3
  | _, _ => .error .value

/-- utils/utils.py:99-121: the loop over the hyperparameters. `obj` = the copy has dtype object (line 110). -/
def unscaleLoop {ι : Type _} (dt : DType ι K) (x : NdArr ι) :
    Nat → Bool → List (Hp K) → NdArr (Val K) → Py (NdArr (Val K))
  | _, _, [], cur => .ok cur
  | i, obj, hp :: hps, cur =>
    match hp.kind with
    | .ordinal _ => .error .type                 -- line 112
    | .constant _ => .error .type
    | .categorical _ => do                       -- lines 108-110: the copy becomes dtype object
      let cur ← updArr i (fun elementwise => unscaleEntry dt elementwise hp true) x cur
      unscaleLoop dt x (i + 1) true hps cur
    | _ => do
      let cur ← updArr i (fun elementwise => unscaleEntry dt elementwise hp obj) x cur
      unscaleLoop dt x (i + 1) obj hps cur

/-- entrywise map over an array. -/
def NdArr.map {α β : Type _} (f : α → β) : NdArr α → NdArr β
  | .d1 a => .d1 (a.map f)
  | .d2 a => .d2 (a.map (·.map f))
  | .d3 a => .d3 (a.map (·.map (·.map f)))
  | .dn => .dn

/-- utils/utils.py:93-122 `unscale`. (With an empty config space the loop body is never entered, so even an
unsupported number of dimensions is returned unchanged.) -/
def unscale {ι : Type _} (dt : DType ι K) (x : NdArr ι) (cs : ConfigSpace K) : Py (NdArr (Val K)) :=
  unscaleLoop dt x 0 false cs (x.map fun e => .num (dt.toNum e))

end unscaleArray

section selection
variable {K : Type _}

/-- One item of a selection: a name, a hyperparameter object, or an object of any other type. -/
inductive SelItem (K : Type _)
  | name (s : String)
  | hp (h : Hp K)
  | foreign
  deriving DecidableEq, Repr

/-- The argument `hyperparameters` (`SelectedHyperparameterType`, optional): utils/typing.py:5. -/
inductive Selection (K : Type _)
  | none
  | one (h : Hp K)
  | name (s : String)
  | many (items : List (SelItem K))
  /-- a non-iterable object of any other type -/
  | foreign
  deriving DecidableEq, Repr

/-- loop body shared by utils/utils.py:148-154 and 215-221. -/
def resolveItem (cs : ConfigSpace K) : SelItem K → Py (Hp K)
  | .name s => cs.get s
  | .hp h => .ok h
  | .foreign => .error .type

/-- utils/utils.py:134-155 `get_hyperparameters`. -/
def getHyperparameters (sel : Selection K) (cs : ConfigSpace K) : Py (List (Hp K)) :=
  match sel with
  | .none => .ok cs                                          -- line 138
  | .one h => .ok [h]                                        -- line 141
  | .name s => (cs.get s).map fun h => [h]                   -- line 144
  | .many items => items.mapM (resolveItem cs)               -- lines 147-155
  | .foreign => .error .type

/-- utils/utils.py:200-222 `convert_hyperparameters`. Iterating `None` is a TypeError. -/
def convertHyperparameters (sel : Selection K) (cs : ConfigSpace K) : Py (List (Hp K)) :=
  match sel with
  | .name s => [SelItem.name s].mapM (resolveItem cs)        -- lines 212-213
  | .one h => [SelItem.hp h].mapM (resolveItem cs)
  | .many items => items.mapM (resolveItem cs)
  | .none => .error .type
  | .foreign => .error .type

/-- utils/utils.py:50-55 `get_selected_idx`. -/
def getSelectedIdx (selected : List (Hp K)) (cs : ConfigSpace K) : Py (List Nat) :=
  selected.mapM fun hp => cs.idx hp.name

end selection

section ranges

/-- one row of utils/utils.py:172-180. `np.logspace(np.log10 l, np.log10 u, n) = 10 ** linspace(...)`. -/
noncomputable def uniformRange (n : Nat) (scaled : Bool) (hp : Hp ℝ) : Py (List ℝ) :=
  match hp.numerical? with
  | none => .error .assertion                                 -- line 173
  | some (lower, upper, log) =>
    if scaled then .ok (linspace 0 1 n)                       -- line 175
    else if log then
      .ok ((linspace (Real.logb 10 lower) (Real.logb 10 upper) n).map fun e => (10 : ℝ) ^ e)  -- line 178
    else .ok (linspace lower upper n)                         -- line 180

/-- utils/utils.py:158-184 `get_uniform_distributed_ranges` (the argument is `list(cs.values())` or a list). -/
noncomputable def getUniformDistributedRanges (hps : List (Hp ℝ)) (samplesPerAxis : Nat) (scaled : Bool) :
    Py (List (List ℝ)) := do
  let ranges ← hps.mapM (uniformRange samplesPerAxis scaled)
  if ranges.length = hps.length then .ok ranges else .error .assertion   -- line 183

end ranges

section medianDistance

/-- utils/utils.py:189-191: Euclidean distance of two rows of `X`. -/
noncomputable def rowDistance (a b : List ℝ) : ℝ :=
  Real.sqrt ((List.zipWith (fun x y => (x - y) ^ 2) a b).sum)

/-- utils/utils.py:188-191: all ordered pairs, row-major, entry `(i, j)` is the distance of rows `j` and `i`. -/
noncomputable def pairDistances (X : List (List ℝ)) : List ℝ :=
  X.flatMap fun xi => X.map fun xj => rowDistance xj xi

/-- `np.median` of a one-dimensional array: middle element of the sorted array, or the mean of the two middle ones;
nan for an empty array. -/
noncomputable def npMedian (xs : List ℝ) : Py ℝ :=
  let s := xs.mergeSort (fun a b => decide (a ≤ b))
  if s.length = 0 then .error .nan
  else if s.length % 2 = 1 then .ok (s.getD (s.length / 2) 0)
  else .ok ((s.getD (s.length / 2 - 1) 0 + s.getD (s.length / 2) 0) / 2)

/-- utils/utils.py:187-193 `median_distance_between_points`. -/
noncomputable def medianDistanceBetweenPoints (X : List (List ℝ)) : Py ℝ :=
  npMedian ((pairDistances X).filter (fun d => decide (d ≠ 0)))

end medianDistance

/-- utils/utils.py:196-197 `calculate_log_delta` (nan/inf for a zero root). -/
def calculateLogDelta {K : Type _} [Field K] [LinearOrder K] (nll nllRoot : K) : Py K :=
  if nllRoot = 0 then .error .nan else .ok ((nllRoot - nll) / |nllRoot|)

/-- utils/utils.py:125-131 `get_stds`; entries are numbers of one curve. Negative variances give nan in numpy. -/
noncomputable def getStds (stds variances : Option (List ℝ)) : Py (List ℝ) :=
  match stds, variances with
  | none, none => .error .runtime
  | some _, some _ => .error .runtime
  | some s, none => .ok s
  | none, some v => .ok (v.map Real.sqrt)

/-- utils/utils.py:41-47 `config_list_to_array` on a list of configurations: one row per configuration. -/
def configListToArray {K : Type _} (X : List (Config K)) : List (List K) := X.map Config.vector

end PyPDP
