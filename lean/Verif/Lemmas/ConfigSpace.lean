import Verif.Model.ConfigSpace

namespace PyPDP
variable {K : Type _}

theorem ConfigSpace.get_of_mem {cs : ConfigSpace K} (h : cs.WF) {hp : Hp K} (hm : hp ∈ cs) :
    cs.get hp.name = .ok hp := by
  unfold ConfigSpace.get
  induction cs with
  | nil => simp at hm
  | cons a as ih =>
    simp only [ConfigSpace.WF, List.map_cons, List.nodup_cons] at h
    rcases List.mem_cons.1 hm with rfl | hm'
    · simp
    · have hne : a.name ≠ hp.name := fun e => h.1 (e ▸ List.mem_map_of_mem hm')
      have hb : (a.name == hp.name) = false := by simpa using hne
      simp only [List.find?_cons, hb]
      exact ih h.2 hm'

theorem ConfigSpace.get_ok {cs : ConfigSpace K} {n : String} {hp : Hp K} (h : cs.get n = .ok hp) :
    hp ∈ cs ∧ hp.name = n := by
  unfold ConfigSpace.get at h
  split at h
  · rename_i a ha
    cases h
    exact ⟨List.mem_of_find?_eq_some ha, by simpa using List.find?_some ha⟩
  · cases h

theorem ConfigSpace.get_error {cs : ConfigSpace K} {n : String} :
    (∃ e, cs.get n = .error e) ↔ ∀ hp ∈ cs, hp.name ≠ n := by
  unfold ConfigSpace.get
  split
  · rename_i a ha
    constructor
    · rintro ⟨e, h⟩; cases h
    · intro h
      exact absurd (by simpa using List.find?_some ha) (h a (List.mem_of_find?_eq_some ha))
  · rename_i ha
    simp at ha
    simp; exact ha

end PyPDP
