/-
Specification vocabulary for the workflow of the README: sample rows with replaced values, averages, configurations inside a box.
-/
import Verif.Model.ConfigSpace
import Mathlib.Data.Real.Basic

namespace PyPDP.Spec

/-- the row `r` with the values of the selected hyperparameters replaced by `t` (in the order of the selection) -/
noncomputable def replaced (space selected : List (Hp ℝ)) (t r : List ℝ) : List ℝ :=
  List.zipWith (fun (h : Hp ℝ) e =>
    match selected.findIdx? fun s => decide (s.name = h.name) with
    | some j => t.getD j 0
    | none => e) space r

/-- average of `φ` over a list of rows -/
noncomputable def averageOver (rows : List (List ℝ)) (φ : List ℝ → ℝ) : ℝ := (rows.map φ).sum / rows.length

/-- every hyperparameter of the space is a float one with a proper range (positive on a log scale) -/
def FloatSpace (space : List (Hp ℝ)) : Prop :=
  ∀ hp ∈ space, ∃ l u g, hp.kind = .float l u g ∧ l < u ∧ (g = true → 0 < l)

/-- the configuration has a value within the bounds for every float hyperparameter of the space -/
def Within (space : List (Hp ℝ)) (cfg : Config ℝ) : Prop :=
  ∀ hp ∈ space, ∃ x l u g, hp.kind = .float l u g ∧ cfg.get? hp.name = some (.num x) ∧ l ≤ x ∧ x ≤ u

end PyPDP.Spec
