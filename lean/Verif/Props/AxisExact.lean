/-
C71 in every case: which calls of check_and_set_axis an axis accepts.
-/
import Verif.Props.Axis
import Verif.Spec.AxisExact

namespace PyPDP
open Spec
variable {K : Type}

theorem titles_iff {c : AxisCall K} {x y : String} : Titles c x y ↔ OneOrTwo c.hps ∧ (x, y) = labelsOf c.hps c.ylabel := by
  constructor
  · rintro (⟨hp, h, rfl, rfl⟩ | ⟨p, q, h, rfl, rfl⟩) <;> simp [h, OneOrTwo, labelsOf]
  · rintro ⟨h12, h⟩
    rcases h12.cases with ⟨hp, e⟩ | ⟨p, q, e⟩
    · rw [e] at h; cases h; exact .inl ⟨hp, e, rfl, rfl⟩
    · rw [e] at h; cases h; exact .inr ⟨p, q, e, rfl, rfl⟩

open Classical in
private theorem run_labelled {x y : String} (hx : x ≠ "") (hy : y ≠ "") : ∀ (calls : List (AxisCall K)) (ax : Ax K), ax.xlabel = x → ax.ylabel = y →
    ∃ ax', axisRun ax calls = (ax', calls.map fun c => if OneOrTwo c.hps ∧ ¬ Titles c x y then .error .value else .ok ()) ∧
      ax'.xlabel = x ∧ ax'.ylabel = y ∧ ax'.shapes = ax.shapes := by
  intro calls
  induction calls with
  | nil => intro ax h1 h2; exact ⟨ax, rfl, h1, h2, rfl⟩
  | cons c cs ih =>
    intro ax h1 h2
    by_cases h12 : OneOrTwo c.hps
    · have hlab := check_labelled (ax := ax) (by rw [h1]; exact hx) (by rw [h2]; exact hy) h12 c.setBounds c.ylabel
      rw [h1, h2] at hlab
      by_cases ht : Titles c x y
      · obtain ⟨a, ha, hax, hay, has⟩ := hlab.1 (titles_iff.1 ht).2
        obtain ⟨a', hr, hrx, hry, hrs⟩ := ih a hax hay
        exact ⟨a', by simp [axisRun, ha, hr, ht], hrx, hry, by rw [hrs, has]⟩
      · have := hlab.2 fun h => ht (titles_iff.2 ⟨h12, h⟩)
        obtain ⟨a', hr, hrx, hry, hrs⟩ := ih ax h1 h2
        exact ⟨a', by simp [axisRun, this, hr, ht, h12], hrx, hry, hrs⟩
    · obtain ⟨a', hr, hrx, hry, hrs⟩ := ih ax h1 h2
      exact ⟨a', by simp [axisRun, C71_many_counterexample ax h12, hr, h12], hrx, hry, hrs⟩

open Classical in
/-- **C71** in every case, for all sequences of calls on a new axis: calls for no or more than two hyperparameters are accepted and change
nothing. The first call for one or two hyperparameters labels the axis. From then on exactly those calls for one or two hyperparameters are
refused that ask for other labels, and the labels stay what they are. (No label being empty.) -/
theorem C71_exact {ax : Ax K} (hx : ax.xlabel = "") (hy : ax.ylabel = "") (before after : List (AxisCall K)) (first : AxisCall K)
    (hbefore : ∀ c ∈ before, ¬ OneOrTwo c.hps) {x y : String} (hfirst : Titles first x y) (hnx : x ≠ "") (hny : y ≠ "") :
    ∃ ax', axisRun ax (before ++ first :: after) = (ax', (before.map fun _ => .ok ()) ++ .ok () ::
        after.map fun c => if OneOrTwo c.hps ∧ ¬ Titles c x y then .error .value else .ok ()) ∧
      ax'.xlabel = x ∧ ax'.ylabel = y ∧ ax'.shapes = ax.shapes := by
  induction before with
  | nil =>
    have hstart : ∃ ax', checkAndSetAxis first.hps first.setBounds first.ylabel ax = (ax', .ok ()) ∧ ax'.xlabel = x ∧ ax'.ylabel = y ∧
        ax'.shapes = ax.shapes := by
      rcases hfirst with ⟨hp, h, rfl, rfl⟩ | ⟨p, q, h, rfl, rfl⟩
      · obtain ⟨ax', h1, h2, h3, h4, -⟩ := C71_first_one hx hy hp first.setBounds first.ylabel
        exact ⟨ax', by rw [h]; exact h1, h2, h3, h4⟩
      · obtain ⟨ax', h1, h2, h3, h4, -⟩ := C71_first_two hx hy p q first.setBounds first.ylabel
        exact ⟨ax', by rw [h]; exact h1, h2, h3, h4⟩
    obtain ⟨a, ha, hax, hay, has⟩ := hstart
    obtain ⟨a', hr, hrx, hry, hrs⟩ := run_labelled hnx hny after a hax hay
    exact ⟨a', by simp [axisRun, ha, hr], hrx, hry, by rw [hrs, has]⟩
  | cons c cs ih =>
    obtain ⟨a', hr, h1, h2, h3⟩ := ih fun d hd => hbefore d (List.mem_cons_of_mem _ hd)
    refine ⟨a', ?_, h1, h2, h3⟩
    simp [axisRun, C71_many_counterexample ax (hbefore c List.mem_cons_self), hr]

/-- a plot over three hyperparameters, a curve, a surface with the same labels, and another curve -/
example : (axisRun (Ax.new : Ax ℚ) [⟨[⟨"a", .float 0 1 false⟩, ⟨"b", .float 0 1 false⟩, ⟨"c", .float 0 1 false⟩], true, "Prediction"⟩,
    ⟨[⟨"x1", .float 1 10 true⟩], true, "Prediction"⟩, ⟨[⟨"x1", .float 1 10 true⟩, ⟨"Prediction", .float 0 1 false⟩], true, "Acquisition"⟩,
    ⟨[⟨"x1", .float 1 10 true⟩], true, "Acquisition"⟩]).2 = [.ok (), .ok (), .ok (), .error .value] := by decide +kernel

end PyPDP
