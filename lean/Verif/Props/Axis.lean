/-
Axis labels, scales and limits: C71 (check_and_set_axis).
-/
import Verif.Spec.Plotting
import Verif.Lemmas.Py

namespace PyPDP
open Spec
variable {K : Type}

@[simp] theorem Ax.boundX_xlabel (ax : Ax K) (b : Bool) (hp : Hp K) : (ax.boundX b hp).xlabel = ax.xlabel := by
  unfold Ax.boundX; split <;> rfl
@[simp] theorem Ax.boundX_ylabel (ax : Ax K) (b : Bool) (hp : Hp K) : (ax.boundX b hp).ylabel = ax.ylabel := by
  unfold Ax.boundX; split <;> rfl
@[simp] theorem Ax.boundX_shapes (ax : Ax K) (b : Bool) (hp : Hp K) : (ax.boundX b hp).shapes = ax.shapes := by
  unfold Ax.boundX; split <;> rfl
@[simp] theorem Ax.boundX_ylim (ax : Ax K) (b : Bool) (hp : Hp K) : (ax.boundX b hp).ylim = ax.ylim := by
  unfold Ax.boundX; split <;> rfl
@[simp] theorem Ax.boundX_ylog (ax : Ax K) (b : Bool) (hp : Hp K) : (ax.boundX b hp).ylog = ax.ylog := by
  unfold Ax.boundX; split <;> rfl
@[simp] theorem Ax.boundY_xlabel (ax : Ax K) (b : Bool) (hp : Hp K) : (ax.boundY b hp).xlabel = ax.xlabel := by
  unfold Ax.boundY; split <;> rfl
@[simp] theorem Ax.boundY_ylabel (ax : Ax K) (b : Bool) (hp : Hp K) : (ax.boundY b hp).ylabel = ax.ylabel := by
  unfold Ax.boundY; split <;> rfl
@[simp] theorem Ax.boundY_shapes (ax : Ax K) (b : Bool) (hp : Hp K) : (ax.boundY b hp).shapes = ax.shapes := by
  unfold Ax.boundY; split <;> rfl
@[simp] theorem Ax.boundY_xlim (ax : Ax K) (b : Bool) (hp : Hp K) : (ax.boundY b hp).xlim = ax.xlim := by
  unfold Ax.boundY; split <;> rfl
@[simp] theorem Ax.boundY_xlog (ax : Ax K) (b : Bool) (hp : Hp K) : (ax.boundY b hp).xlog = ax.xlog := by
  unfold Ax.boundY; split <;> rfl

/-- the labels a selection gets -/
def labelsOf (hps : List (Hp K)) (ylabel : String) : String × String :=
  match hps with
  | [hp] => (hp.name, ylabel)
  | [hp1, hp2] => (hp1.name, hp2.name)
  | _ => ("", "")

theorem Spec.OneOrTwo.cases {hps : List (Hp K)} (h : OneOrTwo hps) : (∃ hp, hps = [hp]) ∨ ∃ hp1 hp2, hps = [hp1, hp2] := by
  rcases h with h | h
  · exact Or.inl (List.length_eq_one_iff.1 h)
  · exact Or.inr (List.length_eq_two.1 h)

/-- a call on an axis whose two labels are set -/
theorem check_labelled {ax : Ax K} (hx : ax.xlabel ≠ "") (hy : ax.ylabel ≠ "") {hps : List (Hp K)} (h : OneOrTwo hps) (b : Bool) (yl : String) :
    ((ax.xlabel, ax.ylabel) = labelsOf hps yl → ∃ ax', checkAndSetAxis hps b yl ax = (ax', .ok ()) ∧ ax'.xlabel = ax.xlabel ∧
      ax'.ylabel = ax.ylabel ∧ ax'.shapes = ax.shapes) ∧
    ((ax.xlabel, ax.ylabel) ≠ labelsOf hps yl → checkAndSetAxis hps b yl ax = (ax, .error .value)) := by
  rcases h.cases with ⟨hp, rfl⟩ | ⟨hp1, hp2, rfl⟩
  · simp only [labelsOf, checkAndSetAxis, Prod.mk.injEq, ne_eq, not_and]
    constructor
    · rintro ⟨h1, h2⟩
      simp [h1, h2]
    · intro h
      by_cases h1 : ax.xlabel = hp.name
      · simp only [h1, not_true_eq_false, and_false, if_false]
        rw [if_pos ⟨hy, h h1⟩]
      · rw [if_pos ⟨hx, h1⟩]
  · simp only [labelsOf, checkAndSetAxis, Prod.mk.injEq, ne_eq]
    constructor
    · rintro ⟨h1, h2⟩
      simp [h1, h2]
    · intro h
      rw [if_pos ⟨fun h' => hx h'.1, h⟩]

theorem labelsOf_inj {a b : List (Hp K)} (ha : OneOrTwo a) (hb : OneOrTwo b) {yl : String} (ha' : ∀ hp ∈ a, hp.name ≠ yl)
    (hb' : ∀ hp ∈ b, hp.name ≠ yl) : labelsOf a yl = labelsOf b yl ↔ a.map Hp.name = b.map Hp.name := by
  rcases ha.cases with ⟨hp, rfl⟩ | ⟨hp1, hp2, rfl⟩ <;> rcases hb.cases with ⟨q, rfl⟩ | ⟨q1, q2, rfl⟩
  · simp [labelsOf]
  · have := hb' q2 (by simp)
    simp [labelsOf, Ne.symm this]
  · have := ha' hp2 (by simp)
    simp [labelsOf, this]
  · simp [labelsOf]

/-- **C71** the first call on a new axis labels it for the selection and sets scale and limits. -/
theorem C71_first_one {ax : Ax K} (hx : ax.xlabel = "") (hy : ax.ylabel = "") (hp : Hp K) (b : Bool) (yl : String) :
    ∃ ax', checkAndSetAxis [hp] b yl ax = (ax', .ok ()) ∧ ax'.xlabel = hp.name ∧ ax'.ylabel = yl ∧ ax'.shapes = ax.shapes ∧
      (b = true → Limits hp ax'.xlim ax'.xlog) ∧ (b = false → ax'.xlim = ax.xlim ∧ ax'.xlog = ax.xlog) ∧
      ax'.ylim = ax.ylim ∧ ax'.ylog = ax.ylog := by
  simp only [checkAndSetAxis, hx, hy, ne_eq, not_true_eq_false, false_and, if_false]
  refine ⟨_, rfl, by simp, by simp, by simp, ?_, ?_, by simp, by simp⟩
  · rintro rfl l u g hk
    have hn : hp.numerical? = some (l, u, g) := by rcases hk with hk | hk <;> simp [Hp.numerical?, hk]
    simp only [Ax.boundX, hn]
    exact ⟨trivial, fun h => by simp [h]⟩
  · rintro rfl
    simp [Ax.boundX]

/-- **C71** the same for two hyperparameters. -/
theorem C71_first_two {ax : Ax K} (hx : ax.xlabel = "") (hy : ax.ylabel = "") (hp1 hp2 : Hp K) (b : Bool) (yl : String) :
    ∃ ax', checkAndSetAxis [hp1, hp2] b yl ax = (ax', .ok ()) ∧ ax'.xlabel = hp1.name ∧ ax'.ylabel = hp2.name ∧ ax'.shapes = ax.shapes ∧
      (b = true → Limits hp1 ax'.xlim ax'.xlog ∧ Limits hp2 ax'.ylim ax'.ylog) ∧
      (b = false → ax'.xlim = ax.xlim ∧ ax'.xlog = ax.xlog ∧ ax'.ylim = ax.ylim ∧ ax'.ylog = ax.ylog) := by
  simp only [checkAndSetAxis, hx, hy, ne_eq, not_true_eq_false, false_and, if_false]
  refine ⟨_, rfl, by simp, by simp, by simp, ?_, ?_⟩
  · rintro rfl
    constructor
    · rintro l u g hk
      have hn : hp1.numerical? = some (l, u, g) := by rcases hk with hk | hk <;> simp [Hp.numerical?, hk]
      simp only [Ax.boundY_xlim, Ax.boundY_xlog, Ax.boundX, hn]
      exact ⟨trivial, fun h => by simp [h]⟩
    · rintro l u g hk
      have hn : hp2.numerical? = some (l, u, g) := by rcases hk with hk | hk <;> simp [Hp.numerical?, hk]
      simp only [Ax.boundY, hn]
      exact ⟨trivial, fun h => by simp [h]⟩
  · rintro rfl
    simp [Ax.boundX, Ax.boundY]

theorem Ax.boundX_idem (ax : Ax K) (b : Bool) (hp : Hp K) : (ax.boundX b hp).boundX b hp = ax.boundX b hp := by
  cases b
  · simp [Ax.boundX]
  · rcases h1 : hp.numerical? with _ | ⟨l, u, g⟩ <;> simp [Ax.boundX, h1]

theorem Ax.boundXY_idem (ax : Ax K) (b : Bool) (hp hp' : Hp K) :
    (((ax.boundX b hp).boundY b hp').boundX b hp).boundY b hp' = (ax.boundX b hp).boundY b hp' := by
  cases b
  · simp [Ax.boundX, Ax.boundY]
  · rcases h1 : hp.numerical? with _ | ⟨l, u, g⟩ <;> rcases h2 : hp'.numerical? with _ | ⟨l', u', g'⟩ <;>
      simp [Ax.boundX, Ax.boundY, h1, h2]

/-- **C71** repeating a successful call succeeds and changes nothing. -/
theorem C71_repeat {ax ax' : Ax K} {hps : List (Hp K)} {b : Bool} {yl : String} (h : checkAndSetAxis hps b yl ax = (ax', .ok ())) :
    checkAndSetAxis hps b yl ax' = (ax', .ok ()) := by
  unfold checkAndSetAxis at h ⊢
  split at h
  · split at h
    · cases h
    · split at h
      · cases h
      · cases h
        simp only [Ax.boundX_xlabel, Ax.boundX_ylabel, ne_eq, not_true_eq_false, and_false, if_false]
        have hself : ∀ (a : Ax K) (s t : String), a.xlabel = s → a.ylabel = t → { a with xlabel := s, ylabel := t } = a := by
          rintro a _ _ rfl rfl; rfl
        rw [hself _ _ _ (by simp) (by simp), Ax.boundX_idem]
  · split at h
    · cases h
    · cases h
      simp only [Ax.boundY_xlabel, Ax.boundY_ylabel, Ax.boundX_xlabel, Ax.boundX_ylabel, ne_eq, not_true_eq_false, and_false, if_false]
      have hself : ∀ (a : Ax K) (s t : String), a.xlabel = s → a.ylabel = t → { a with xlabel := s, ylabel := t } = a := by
        rintro a _ _ rfl rfl; rfl
      rw [hself _ _ _ (by simp) (by simp), Ax.boundXY_idem]
  · cases h; rfl

/-- **C71** a call that raises, raises ValueError and leaves the axis as it was; no call draws anything. -/
theorem C71_rejected (ax : Ax K) (hps : List (Hp K)) (b : Bool) (yl : String) :
    (checkAndSetAxis hps b yl ax).1.shapes = ax.shapes ∧
    ∀ e, (checkAndSetAxis hps b yl ax).2 = .error e → e = .value ∧ (checkAndSetAxis hps b yl ax).1 = ax := by
  unfold checkAndSetAxis
  split
  · split
    · simp
    · split <;> simp
  · split <;> simp
  · simp

/-- **C71** for all sequences of calls that select one or two hyperparameters, with one and the same label for predictions, no
hyperparameter having this label (or no name at all): the first call labels the axis; every later call succeeds if it selects the
same hyperparameters and raises ValueError otherwise, and the labels stay those of the first call. Missing for the full claim:
selections of no or more than two hyperparameters and a hyperparameter called like the label, see the counterexamples. -/
theorem C71_sequence_partial {ax : Ax K} (hx : ax.xlabel = "") (hy : ax.ylabel = "") {yl : String} (hyl : yl ≠ "") (first : AxisCall K)
    (calls : List (AxisCall K)) (hsel : ∀ c ∈ first :: calls, OneOrTwo c.hps ∧ c.ylabel = yl ∧ ∀ hp ∈ c.hps, hp.name ≠ "" ∧ hp.name ≠ yl) :
    ∃ ax' ax'', checkAndSetAxis first.hps first.setBounds first.ylabel ax = (ax', .ok ()) ∧
      axisRun ax (first :: calls) = (ax'', .ok () :: calls.map fun c =>
        if c.hps.map Hp.name = first.hps.map Hp.name then .ok () else .error .value) ∧
      ax''.xlabel = ax'.xlabel ∧ ax''.ylabel = ax'.ylabel ∧ ax''.shapes = ax.shapes := by
  obtain ⟨h12, hfy, hfn⟩ := hsel first (by simp)
  have hstart : ∃ ax', checkAndSetAxis first.hps first.setBounds first.ylabel ax = (ax', .ok ()) ∧
      (ax'.xlabel, ax'.ylabel) = labelsOf first.hps yl ∧ ax'.xlabel ≠ "" ∧ ax'.ylabel ≠ "" ∧ ax'.shapes = ax.shapes := by
    rcases OneOrTwo.cases h12 with ⟨hp, e⟩ | ⟨hp1, hp2, e⟩
    · obtain ⟨ax', h1, h2, h3, h4, -⟩ := C71_first_one hx hy hp first.setBounds first.ylabel
      refine ⟨ax', by rw [e]; exact h1, by rw [e, h2, h3, hfy]; rfl, ?_, by rw [h3, hfy]; exact hyl, h4⟩
      rw [h2]; exact (hfn hp (by simp [e])).1
    · obtain ⟨ax', h1, h2, h3, h4, -⟩ := C71_first_two hx hy hp1 hp2 first.setBounds first.ylabel
      refine ⟨ax', by rw [e]; exact h1, by rw [e, h2, h3]; rfl, ?_, ?_, h4⟩
      · rw [h2]; exact (hfn hp1 (by simp [e])).1
      · rw [h3]; exact (hfn hp2 (by simp [e])).1
  obtain ⟨ax', h1, hl, hnx, hny, hsh⟩ := hstart
  have hrun : ∀ (calls : List (AxisCall K)) (a : Ax K), (∀ c ∈ calls, OneOrTwo c.hps ∧ c.ylabel = yl ∧ ∀ hp ∈ c.hps, hp.name ≠ "" ∧ hp.name ≠ yl) →
      a.xlabel = ax'.xlabel → a.ylabel = ax'.ylabel →
      ∃ a', axisRun a calls = (a', calls.map fun c => if c.hps.map Hp.name = first.hps.map Hp.name then .ok () else .error .value) ∧
        a'.xlabel = ax'.xlabel ∧ a'.ylabel = ax'.ylabel ∧ a'.shapes = a.shapes := by
    intro calls
    induction calls with
    | nil => intro a _ h2 h3; exact ⟨a, rfl, h2, h3, rfl⟩
    | cons c cs ih =>
      intro a hall h2 h3
      obtain ⟨hc12, hcy, hcn⟩ := hall c (by simp)
      have hlab := check_labelled (ax := a) (by rw [h2]; exact hnx) (by rw [h3]; exact hny) hc12 c.setBounds yl
      rw [h2, h3, hl, labelsOf_inj h12 hc12 (fun hp hm => (hfn hp hm).2) (fun hp hm => (hcn hp hm).2)] at hlab
      by_cases hsame : c.hps.map Hp.name = first.hps.map Hp.name
      · obtain ⟨a1, ha1, hax, hay, has⟩ := hlab.1 hsame.symm
        obtain ⟨a', hr, hrx, hry, hrs⟩ := ih a1 (fun d hd => hall d (by simp [hd])) hax hay
        refine ⟨a', ?_, hrx, hry, by rw [hrs, has]⟩
        simp only [axisRun, hcy, ha1, hr, List.map_cons, if_pos hsame]
      · have := hlab.2 (fun h => hsame ((labelsOf_inj h12 hc12 (fun hp hm => (hfn hp hm).2) (fun hp hm => (hcn hp hm).2)).1 h).symm)
        obtain ⟨a', hr, hrx, hry, hrs⟩ := ih a (fun d hd => hall d (by simp [hd])) h2 h3
        refine ⟨a', ?_, hrx, hry, hrs⟩
        simp only [axisRun, hcy, this, hr, List.map_cons, if_neg hsame]
  obtain ⟨a', hr, hrx, hry, hrs⟩ := hrun calls ax' (fun c hc => hsel c (by simp [hc])) rfl rfl
  exact ⟨ax', a', h1, by simp only [axisRun, h1, hr], hrx, hry, by rw [hrs, hsh]⟩

/-- **C71** a one-dimensional plot of another quantity (another y label) on a labelled axis raises ValueError. -/
theorem C71_other_quantity {ax ax' : Ax K} {hp : Hp K} {b : Bool} {yl yl' : String} (hyl : yl ≠ "") (hne : yl' ≠ yl)
    (h : checkAndSetAxis [hp] b yl ax = (ax', .ok ())) (hp' : Hp K) (b' : Bool) : checkAndSetAxis [hp'] b' yl' ax' = (ax', .error .value) := by
  have hy : ax'.ylabel = yl := by
    simp only [checkAndSetAxis] at h
    split at h
    · cases h
    · split at h
      · cases h
      · cases h; simp
  simp only [checkAndSetAxis]
  split
  · rfl
  · rw [if_pos ⟨by rw [hy]; exact hyl, by rw [hy]; exact fun h => hne h.symm⟩]

/-- **C71** is false for a hyperparameter with the name "Prediction": the two-dimensional plot of `hp1` and this hyperparameter is
accepted on the axis of the one-dimensional plot of `hp1`. -/
theorem C71_name_counterexample (hp1 hp2 : Hp K) (h : hp2.name = "Prediction") :
    (axisRun Ax.new [⟨[hp1], true, "Prediction"⟩, ⟨[hp1, hp2], true, "Prediction"⟩]).2 = [.ok (), .ok ()] := by
  obtain ⟨ax', h1, hx, hy, -⟩ := C71_first_one (ax := (Ax.new : Ax K)) rfl rfl hp1 true "Prediction"
  simp only [axisRun, h1]
  simp [checkAndSetAxis, hx, hy, h]

/-- **C71** is false for selections of no or more than two hyperparameters: they are accepted on every axis. -/
theorem C71_many_counterexample (ax : Ax K) {hps : List (Hp K)} (h : ¬ OneOrTwo hps) (b : Bool) (yl : String) :
    checkAndSetAxis hps b yl ax = (ax, .ok ()) := by
  unfold checkAndSetAxis
  split
  · exact absurd (Or.inl rfl) h
  · exact absurd (Or.inr rfl) h
  · rfl

example : axisRun (Ax.new : Ax ℚ) [⟨[⟨"x1", .float 1 10 true⟩], true, "Prediction"⟩, ⟨[⟨"x2", .float 0 1 false⟩], true, "Prediction"⟩,
    ⟨[⟨"x1", .float 1 10 true⟩, ⟨"x2", .float 0 1 false⟩], true, "Prediction"⟩, ⟨[⟨"x1", .float 2 5 true⟩], true, "Prediction"⟩] =
    (⟨"x1", "Prediction", true, false, some (2, 5), none, []⟩, [.ok (), .error .value, .error .value, .ok ()]) := by decide +kernel

end PyPDP
