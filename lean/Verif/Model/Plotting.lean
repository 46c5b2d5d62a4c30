/-
Model of pyPDP/utils/plotting.py.

An axis is the part of a `plt.Axes` the code reads or writes: labels, scales, limits, and the list of shapes drawn so far. A
plotting function is a state transformer on the axis that may raise; what was drawn before an exception stays.

Contracts of matplotlib used: `plot`, `fill_between` need as many values as coordinates (ValueError), an alpha value has to be in
`[0, 1]` (ValueError). Not modelled: legend labels, markers, line styles, annotations, contour lines (they repeat the data of the
colours), the resolution of colour names, `plt.gca()` (every function gets its axis; how the argument
`ax` is resolved is modelled in Model/Session).
-/
import Verif.Model.Blackbox

namespace PyPDP

/-- One drawn object. `line`, `points`: `ax.plot` / `ax.scatter`; `band`: `fill_between`; `mesh`: `pcolormesh` (row by row); `tri`:
`tripcolor`; `box`: `fill_betweenx` over two heights. -/
inductive Shape (K : Type)
  | line (color : String) (xs ys : List K)
  | points (color : String) (xs ys : List K)
  | band (color : String) (xs lo hi : List K)
  | mesh (xs ys : List K) (z : List (List K))
  | tri (xs ys vs : List K)
  | vline (color : String) (x : K)
  | vspan (color : String) (a b : K)
  | box (color : String) (x0 x1 y0 y1 : K)
  deriving DecidableEq, Repr

/-- What the code uses of a `plt.Axes`. -/
structure Ax (K : Type) where
  xlabel : String
  ylabel : String
  xlog : Bool
  ylog : Bool
  xlim : Option (K × K)
  ylim : Option (K × K)
  shapes : List (Shape K)
  deriving DecidableEq, Repr

/-- a new axis -/
def Ax.new {K : Type} : Ax K := ⟨"", "", false, false, none, none, []⟩

/-- A function that works on an axis. -/
def Plot (K α : Type) := Ax K → Ax K × Py α

namespace Plot
variable {K α β : Type}

protected def pure (a : α) : Plot K α := fun ax => (ax, .ok a)

protected def bind (p : Plot K α) (f : α → Plot K β) : Plot K β := fun ax =>
  match p ax with
  | (ax', .ok a) => f a ax'
  | (ax', .error e) => (ax', .error e)

instance : Monad (Plot K) where
  pure := Plot.pure
  bind := Plot.bind

/-- a computation that does not touch the axis -/
def lift (r : Py α) : Plot K α := fun ax => (ax, r)

/-- draw one shape -/
def add (s : Shape K) : Plot K Unit := fun ax => ({ ax with shapes := ax.shapes ++ [s] }, .ok ())

/-- raise an exception -/
def raise (e : PyErr) : Plot K α := fun ax => (ax, .error e)

end Plot

/-! ### axes -/

section axis
variable {K : Type}

/-- utils/plotting.py:70-73, 86-89: scale and limits of the x axis -/
def Ax.boundX (ax : Ax K) (setBounds : Bool) (hp : Hp K) : Ax K :=
  match setBounds, hp.numerical? with
  | true, some (lower, upper, log) => { ax with xlog := if log then true else ax.xlog, xlim := some (lower, upper) }
  | _, _ => ax

/-- utils/plotting.py:90-93: scale and limits of the y axis -/
def Ax.boundY (ax : Ax K) (setBounds : Bool) (hp : Hp K) : Ax K :=
  match setBounds, hp.numerical? with
  | true, some (lower, upper, log) => { ax with ylog := if log then true else ax.ylog, ylim := some (lower, upper) }
  | _, _ => ax

/-- utils/plotting.py:41-93 `check_and_set_axis`. For other numbers of hyperparameters nothing happens. -/
def checkAndSetAxis (hps : List (Hp K)) (setBounds : Bool := true) (ylabel : String := "Prediction") : Plot K Unit := fun ax =>
  match hps with
  | [hp] =>
    if ax.xlabel ≠ "" ∧ ax.xlabel ≠ hp.name then (ax, .error .value)                 -- 54-56
    else if ax.ylabel ≠ "" ∧ ax.ylabel ≠ ylabel then (ax, .error .value)             -- 60-62
    else (({ ax with xlabel := hp.name, ylabel := ylabel } : Ax K).boundX setBounds hp, .ok ())
  | [hp1, hp2] =>
    if (ax.xlabel, ax.ylabel) ≠ ("", "") ∧ (ax.xlabel, ax.ylabel) ≠ (hp1.name, hp2.name) then (ax, .error .value)   -- 80-82
    else ((({ ax with xlabel := hp1.name, ylabel := hp2.name } : Ax K).boundX setBounds hp1).boundY setBounds hp2, .ok ())
  | _ => (ax, .ok ())

end axis

/-! ### drawing helpers -/

section helpers
variable {K : Type} [Field K] [LinearOrder K]

/-- `ax.plot(x, y, color=..., alpha=...)` -/
def drawLine (color : String) (alpha : K) (xs ys : List K) : Plot K Unit :=
  if 0 ≤ alpha ∧ alpha ≤ 1 ∧ xs.length = ys.length then Plot.add (.line color xs ys) else Plot.raise .value

/-- `ax.fill_between(x, y1, y2, color=..., alpha=...)` -/
def drawBand (color : String) (alpha : K) (xs lo hi : List K) : Plot K Unit :=
  if 0 ≤ alpha ∧ alpha ≤ 1 ∧ xs.length = lo.length ∧ xs.length = hi.length then Plot.add (.band color xs lo hi)
  else Plot.raise .value

/-- utils/plotting.py:233-246 `plot_2D`. A triangulation needs as many values as points and at least three points (ValueError); that
they do not all lie on a line is assumed. -/
def plot2D (xs ys vs : List K) : Plot K Unit :=
  if 3 ≤ xs.length ∧ xs.length = ys.length ∧ xs.length = vs.length then Plot.add (.tri xs ys vs) else Plot.raise .value

/-- `ax.plot` of two arrays of shape `(rows, n)`: one line per column, from the `j`-th column on -/
def drawColumns (color : String) (alpha : K) (xs ys : List (List K)) : Nat → Nat → Plot K Unit
  | _, 0 => pure ()
  | j, k + 1 => do
    drawLine color alpha (xs.map fun row => row.getD j 0) (ys.map fun row => row.getD j 0)
    drawColumns color alpha xs ys (j + 1) k

/-- `means + f * stds`; the code's `means - f * stds` is the one for `-f`. ValueError for different lengths (simplified: a single
entry is not broadcast). -/
def offsetBy (f : K) (means stds : List K) : Py (List K) :=
  if means.length = stds.length then .ok (List.zipWith (fun m s => m + f * s) means stds) else .error .value

/-- utils/plotting.py:168-176 `plot_line` -/
def plotLine (color : String) (x y : List K) : Plot K Unit := drawLine color 1 x y

/-- utils/plotting.py:192-201: the bands number `i, i + 1, ...`, `k` of them -/
def bandLoop (color : String) (steps : Nat) (maxSigma : K) (x means stds : List K) : Nat → Nat → Plot K Unit
  | _, 0 => pure ()
  | i, k + 1 => do
    let f := (i : K) / (steps : K) * maxSigma
    let lo ← Plot.lift (offsetBy (-f) means stds)
    let hi ← Plot.lift (offsetBy f means stds)
    drawBand color (3 / 10 / (steps : K)) x lo hi
    bandLoop color steps maxSigma x means stds (i + 1) k

/-- The argument `k_sigmas`: a list or tuple, or an iterator, which can be read only once. -/
inductive KSigmas (K : Type)
  | seq (ks : List K)
  | iter (ks : List K)

/-- `0 in k_sigmas` -/
def KSigmas.hasZero : KSigmas K → Bool
  | .seq ks => decide (0 ∈ ks)
  | .iter ks => decide (0 ∈ ks)

/-- what is left of `k_sigmas` after `0 in k_sigmas`: an iterator has been read up to the first zero. -/
def KSigmas.rest : KSigmas K → List K
  | .seq ks => ks
  | .iter ks => (ks.dropWhile fun k => decide (k ≠ 0)).drop 1

/-- utils/plotting.py:221-230: the loop over the sorted factors -/
def sigmaLoop (color : String) (x means stds : List K) : List K → Plot K Unit
  | [] => pure ()
  | k :: ks =>
    if k = 0 then sigmaLoop color x means stds ks
    else do
      let lo ← Plot.lift (offsetBy (-k) means stds)
      drawLine color (1 / k * (1 / 5)) x lo
      let hi ← Plot.lift (offsetBy k means stds)
      drawLine color (1 / k * (1 / 5)) x hi
      sigmaLoop color x means stds ks

/-- lines 218-219 -/
def muLine (color : String) (x means : List K) (hasZero : Bool) : Plot K Unit :=
  if hasZero then drawLine color (3 / 10) x means else pure ()

end helpers

/-- utils/plotting.py:179-201 `plot_1D_confidence_color_gradients` -/
noncomputable def confidenceGradients (x means : List ℝ) (stds variances : Option (List ℝ)) (color : String) (steps : Int) (maxSigma : ℝ) :
    Plot ℝ Unit := do
  let s ← Plot.lift (getStds stds variances)
  bandLoop color steps.toNat maxSigma x means s 0 steps.toNat

/-- utils/plotting.py:204-230 `plot_1D_confidence_lines` -/
noncomputable def confidenceLines (x means : List ℝ) (stds variances : Option (List ℝ)) (color : String) (ks : KSigmas ℝ) : Plot ℝ Unit := do
  let s ← Plot.lift (getStds stds variances)
  muLine color x means ks.hasZero
  sigmaLoop color x means s (ks.rest.mergeSort fun a b => decide (a ≤ b))

/-! ### functions and spaces -/

/-- utils/plotting.py:136: names and values of the constants -/
def constantsOf {K : Type} (cs : ConfigSpace K) : List (String × Val K) :=
  cs.filterMap fun hp => hp.constant?.map fun v => (hp.name, v)

/-- utils/plotting.py:137 -/
def parametersOf {K : Type} (cs : ConfigSpace K) : List (Hp K) := cs.filter fun hp => hp.constant?.isNone

/-- utils/plotting.py:147-163. `np.meshgrid(x, y)` flattened: for every value of the second parameter all values of the first. -/
def plotValues {K : Type} [Field K] [LinearOrder K] (f : List (String × Val K) → Py K) (consts : List (String × Val K)) (color : String)
    (ranges : List (List K)) : List (Hp K) → Plot K Unit
  | [p] => do
    let x ← Plot.lift (pyGet ranges 0)
    let y ← Plot.lift (x.mapM fun t => f ((p.name, .num t) :: consts))
    drawLine color 1 x y
  | [p, q] => do
    let x ← Plot.lift (pyGet ranges 0)
    let y ← Plot.lift (pyGet ranges 1)
    let flat ← Plot.lift ((y.flatMap fun b => x.map fun a => (a, b)).mapM fun ab =>
      f ((p.name, .num ab.1) :: (q.name, .num ab.2) :: consts))
    let z ← Plot.lift (reshape2 y.length x.length flat)
    Plot.add (.mesh x y z)
  | _ => pure ()

/-- utils/plotting.py:128-165 `plot_function`; `f` gets keyword arguments (names with values). -/
noncomputable def plotFunction (f : List (String × Val ℝ) → Py ℝ) (cs : ConfigSpace ℝ) (samplesPerAxis : Nat) (color : String) : Plot ℝ Unit :=
  if 2 < (parametersOf cs).length then Plot.raise .value                                           -- 139
  else if (parametersOf cs).length = 0 then Plot.raise .value                                      -- 141
  else do
    let ranges ← Plot.lift (getUniformDistributedRanges (parametersOf cs) samplesPerAxis false)    -- 144
    checkAndSetAxis (parametersOf cs)                                                              -- 147
    plotValues f (constantsOf cs) color ranges (parametersOf cs)

/-- utils/plotting.py:270-288: lower and upper end of one side of the box (a string constant would be drawn on a categorical axis;
simplified to a TypeError) -/
def boxSide {K : Type} (hp : Hp K) : Py (K × K) :=
  match hp.numerical?, hp.constant? with
  | some (lower, upper, _), _ => .ok (lower, upper)
  | none, some (.num v) => .ok (v, v)
  | none, _ => .error .type

/-- utils/plotting.py:260-300: the drawing part of `plot_config_space` -/
def drawSpace {K : Type} (color : String) : List (Hp K) → Plot K Unit
  | [hp] =>
    match hp.numerical? with
    | none => Plot.raise .assertion
    | some (lower, upper, _) => do
      Plot.add (.vline color lower)
      Plot.add (.vline color upper)
      Plot.add (.vspan color lower upper)
  | [hp1, hp2] => do
    let sx ← Plot.lift (boxSide hp1)
    let sy ← Plot.lift (boxSide hp2)
    Plot.add (.box color sx.1 sx.2 sy.1 sy.2)
  | _ => Plot.raise .notImplemented

/-- utils/plotting.py:249-300 `plot_config_space` -/
def plotConfigSpace {K : Type} (cs : ConfigSpace K) (sel : Selection K) (color : String) : Plot K Unit := do
  let hps ← Plot.lift (getHyperparameters sel cs)
  checkAndSetAxis hps false
  drawSpace color hps

/-- utils/plotting.py:303-308 `as_quadratic_shape_as_possible_for_n_figures`; `int(nan)` is a ValueError for a negative `n`. (Exact
square root; numpy's is correctly rounded.) -/
noncomputable def quadraticShape (n : Int) : Py (Nat × Nat) :=
  if n < 0 then .error .value
  else
    let w := ⌈Real.sqrt (n : ℝ)⌉.toNat
    match ((List.range w).map (· + 1)).find? fun h : Nat => decide (n ≤ (h : Int) * w) with
    | some h => .ok (w, h)
    | none => .error .value

/-! ### colours -/

section colour
variable {K : Type} [Field K] [LinearOrder K] [FloorRing K]

/-- a colour: red, green, blue -/
abbrev Rgb (K : Type) := K × K × K

/-- colorsys.py `rgb_to_hls` -/
def rgbToHls (c : Rgb K) : K × K × K :=
  let (r, g, b) := c
  let maxc := max (max r g) b
  let minc := min (min r g) b
  let l := (maxc + minc) / 2
  if minc = maxc then (0, l, 0)
  else
    let range := maxc - minc
    let s := if l ≤ 1 / 2 then range / (maxc + minc) else range / (2 - maxc - minc)
    let rc := (maxc - r) / range
    let gc := (maxc - g) / range
    let bc := (maxc - b) / range
    let h := if r = maxc then bc - gc else if g = maxc then 2 + rc - bc else 4 + gc - rc
    (Int.fract (h / 6), l, s)

/-- colorsys.py `_v` -/
def hueValue (m1 m2 hue : K) : K :=
  let h := Int.fract hue
  if h < 1 / 6 then m1 + (m2 - m1) * h * 6
  else if h < 1 / 2 then m2
  else if h < 2 / 3 then m1 + (m2 - m1) * (2 / 3 - h) * 6
  else m1

/-- colorsys.py `hls_to_rgb` -/
def hlsToRgb (h l s : K) : Rgb K :=
  if s = 0 then (l, l, l)
  else
    let m2 := if l ≤ 1 / 2 then l * (1 + s) else l + s - l * s
    let m1 := 2 * l - m2
    (hueValue m1 m2 (h + 1 / 3), hueValue m1 m2 h, hueValue m1 m2 (h - 1 / 3))

/-- utils/plotting.py:100-124 `adjust_lightness`, given the colour as RGB -/
def adjustLightness (c : Rgb K) (amount : K) : Rgb K :=
  let (h, l, s) := rgbToHls c
  hlsToRgb h (max 0 (min 1 (amount * l))) s

end colour
end PyPDP
