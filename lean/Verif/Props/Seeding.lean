/-
C08: seeding isolates components and is reproducible.
-/
import Verif.Model.Seeding
import Verif.Spec.Seeding
import Mathlib.Tactic.NormNum

namespace PyPDP
open Spec

variable {K S R : Type _} {rng : Rng K S R} {md5 : String → Nat}

theorem hstep_valid {w : World K S} (hw : Spec.World.Valid w) (op : HOp) : Spec.World.Valid (hstep rng md5 w op).1 := by
  unfold Spec.World.Valid at hw
  cases op with
  | build src cls seed time =>
    simp only [hstep, holderInit]
    split
    · exact hw
    · rename_i r hr
      have hr' := hw r (List.mem_of_getElem? hr)
      split
      · intro r' h
        rcases List.mem_append.1 h with h | h
        · exact hw r' h
        · simp at h; subst h; exact hr'
      · split
        · exact hw
        · intro r' h
          simp only [List.length_append, List.length_singleton]
          rcases List.mem_append.1 h with h | h
          · exact Nat.lt_succ_of_lt (hw r' h)
          · simp at h; omega
  | draw h n =>
    simp only [hstep, sampleRandomConfiguration]
    split
    · exact hw
    · split
      · exact hw
      · intro r' h; simpa using hw r' h

/-- The results through a handle that nobody shares are those of a stand-alone generator started in its present state,
whatever else the program does. -/
theorem isolated_results (ops : List HOp) : ∀ (w : World K S) (h r : Nat) (sp : SpaceObj K S),
    Spec.World.Valid w → w.handles[h]? = some r → w.spaces[r]? = some sp →
    (∀ h', w.handles[h']? = some r → h' = h) → NotShared h ops →
    results h (hrun rng md5 w ops).2 = stream rng sp.hps sp.state (requests h ops) := by
  induction ops with
  | nil => intros; rfl
  | cons op ops ih =>
    intro w h r sp hw hh hsp huniq hns
    have hns' : NotShared h ops := fun src cls time hm => hns src cls time (List.mem_cons_of_mem _ hm)
    have hw' := hstep_valid (rng := rng) (md5 := md5) hw op
    cases op with
    | build src cls seed time =>
      have hlt : h < w.handles.length := (List.getElem?_eq_some_iff.1 hh).1
      have hrlt : r < w.spaces.length := (List.getElem?_eq_some_iff.1 hsp).1
      show results h (hrun rng md5 (hstep rng md5 w (.build src cls seed time)).1 ops).2 = _
      apply ih _ h r sp hw' ?_ ?_ ?_ hns'
      · simp only [hstep, holderInit]
        split
        · exact hh
        · split
          · simpa [List.getElem?_append_left hlt] using hh
          · split
            · exact hh
            · simpa [List.getElem?_append_left hlt] using hh
      · simp only [hstep, holderInit]
        split
        · exact hsp
        · split
          · exact hsp
          · split
            · exact hsp
            · simpa [List.getElem?_append_left hrlt] using hsp
      · intro h' hh'
        simp only [hstep, holderInit] at hh'
        split at hh'
        · exact huniq h' hh'
        · rename_i r0 hr0
          split at hh'
          · rename_i hseed
            have hex : seed = .existing := by
              cases seed <;> simp [finalSeed] at hseed ⊢
            rcases Nat.lt_or_ge h' w.handles.length with hl | hl
            · exact huniq h' (by simpa [List.getElem?_append_left hl] using hh')
            · rw [List.getElem?_append_right hl] at hh'
              have h0 : r0 = r := by
                have := List.mem_of_getElem? hh'; simpa [eq_comm] using this
              subst h0
              exact absurd (huniq src hr0) (hns src cls time (by simp [hex]))
          · split at hh'
            · exact huniq h' hh'
            · rcases Nat.lt_or_ge h' w.handles.length with hl | hl
              · exact huniq h' (by simpa [List.getElem?_append_left hl] using hh')
              · simp only [List.getElem?_append_right hl] at hh'
                have h0 : w.spaces.length = r := by
                  have := List.mem_of_getElem? hh'; simpa [eq_comm] using this
                omega
    | draw h' n =>
      by_cases he : h' = h
      · subst he
        have hst : hstep rng md5 w (.draw h' n) =
            ({ w with spaces := w.spaces.set r ⟨sp.hps, (rng.draw sp.hps sp.state n).2⟩ },
              some (rng.draw sp.hps sp.state n).1) := by
          simp [hstep, sampleRandomConfiguration, hh, hsp]
        rw [hst] at hw'
        have := ih _ h' r ⟨sp.hps, (rng.draw sp.hps sp.state n).2⟩ hw' hh
          (by simp [(List.getElem?_eq_some_iff.1 hsp).1]) huniq hns'
        simp only [hrun, hst, results, if_true, requests, stream, List.cons.injEq, true_and]
        exact this
      · have key : results h (hrun rng md5 w (.draw h' n :: ops)).2 =
            results h (hrun rng md5 (hstep rng md5 w (.draw h' n)).1 ops).2 := by
          simp only [hrun]
          split
          · rename_i heq hr
            cases heq
            simp [results, he]
          · rfl
        rw [key]
        simp only [requests, he, if_false]
        apply ih _ h r sp hw' ?_ ?_ ?_ hns'
        · simp only [hstep, sampleRandomConfiguration]
          split
          · exact hh
          · split <;> exact hh
        · simp only [hstep, sampleRandomConfiguration]
          split
          · exact hsp
          · rename_i r' hr'
            split
            · exact hsp
            · have : r' ≠ r := fun e => he (huniq h' (e ▸ hr'))
              simp only [List.getElem?_set_ne this]; exact hsp
        · intro h'' hh''
          apply huniq
          simp only [hstep, sampleRandomConfiguration] at hh''
          split at hh''
          · exact hh''
          · split at hh'' <;> exact hh''

/-- A component built with a seed that is not `True` gets an object of its own. -/
theorem build_own {w : World K S} (hw : Spec.World.Valid w) {src r : Nat} {sp : SpaceObj K S}
    (hsrc : w.handles[src]? = some r) (hsp : w.spaces[r]? = some sp) {cls : String} {seed : SeedArg} {time : Int} {k : Nat}
    (hk : finalSeed md5 cls time seed = some k) :
    let w' := holderInit rng md5 w src cls seed time
    Spec.World.Valid w' ∧ w'.handles[w.handles.length]? = some w.spaces.length ∧
    w'.spaces[w.spaces.length]? = some ⟨sp.hps, rng.seed sp.hps k⟩ ∧
    (∀ h', w'.handles[h']? = some w.spaces.length → h' = w.handles.length) := by
  have hv := hstep_valid (rng := rng) (md5 := md5) hw (.build src cls seed time)
  simp only [hstep, holderInit, hsrc, hk, hsp] at hv ⊢
  refine ⟨hv, by simp, by simp, fun h' hh' => ?_⟩
  rcases Nat.lt_or_ge h' w.handles.length with hl | hl
  · rw [List.getElem?_append_left hl] at hh'
    have := hw _ (List.mem_of_getElem? hh')
    omega
  · rw [List.getElem?_append_right hl] at hh'
    have := (List.getElem?_eq_some_iff.1 hh').1
    simp at this; omega

/-- **C08** reproducibility. Take any two situations (different original spaces objects, different histories before), build
a component of the same class with the same integer seed on config spaces that declare the same hyperparameters, then run
any two programs. If the two components are asked for the same sizes (and are not themselves shared by `seed=True`) they
return the same configurations, whatever the programs do otherwise. -/
theorem C08_reproducible {w₁ w₂ : World K S} (hw₁ : Spec.World.Valid w₁) (hw₂ : Spec.World.Valid w₂)
    {src₁ src₂ r₁ r₂ : Nat} {sp₁ sp₂ : SpaceObj K S}
    (hs₁ : w₁.handles[src₁]? = some r₁) (hp₁ : w₁.spaces[r₁]? = some sp₁)
    (hs₂ : w₂.handles[src₂]? = some r₂) (hp₂ : w₂.spaces[r₂]? = some sp₂) (hhps : sp₁.hps = sp₂.hps)
    (cls : String) (z : Int) (t₁ t₂ : Int) (ops₁ ops₂ : List HOp)
    (hn₁ : NotShared w₁.handles.length ops₁) (hn₂ : NotShared w₂.handles.length ops₂)
    (hreq : requests w₁.handles.length ops₁ = requests w₂.handles.length ops₂) :
    results w₁.handles.length (hrun rng md5 (holderInit rng md5 w₁ src₁ cls (.int z) t₁) ops₁).2 =
    results w₂.handles.length (hrun rng md5 (holderInit rng md5 w₂ src₂ cls (.int z) t₂) ops₂).2 := by
  obtain ⟨v₁, a₁, b₁, c₁⟩ := build_own (rng := rng) (md5 := md5) hw₁ hs₁ hp₁ (cls := cls) (seed := .int z) (time := t₁) rfl
  obtain ⟨v₂, a₂, b₂, c₂⟩ := build_own (rng := rng) (md5 := md5) hw₂ hs₂ hp₂ (cls := cls) (seed := .int z) (time := t₂) rfl
  rw [isolated_results ops₁ _ _ _ _ v₁ a₁ b₁ c₁ hn₁, isolated_results ops₂ _ _ _ _ v₂ a₂ b₂ c₂ hn₂, hreq, hhps]

/-- **C08** isolation of an existing space (e.g. the original): building components on it with seeds other than `True` and
using them in any interleaving does not change what it draws; it draws as if the rest of the program were absent. -/
theorem C08_original_undisturbed {w : World K S} (hw : Spec.World.Valid w) {h r : Nat} {sp : SpaceObj K S}
    (hh : w.handles[h]? = some r) (hsp : w.spaces[r]? = some sp) (huniq : ∀ h', w.handles[h']? = some r → h' = h)
    (ops : List HOp) (hns : NotShared h ops) :
    results h (hrun rng md5 w ops).2 =
      results h (hrun rng md5 w ((requests h ops).map (HOp.draw h))).2 := by
  have hr : ∀ l : List Int, requests h (l.map (HOp.draw h)) = l := by
    intro l; induction l with
    | nil => rfl
    | cons a as ih => simp [requests, ih]
  rw [isolated_results ops w h r sp hw hh hsp huniq hns,
    isolated_results _ w h r sp hw hh hsp huniq (by intro src cls time hm; simp at hm), hr]

/-- **C08** `seed=True` shares: the new component's draws are draws of the component it was built on, with the same
effect. -/
theorem C08_true_shares {w : World K S} {src r : Nat} (hsrc : w.handles[src]? = some r) (cls : String) (time : Int)
    (n : Int) :
    let w' := holderInit rng md5 w src cls .existing time
    sampleRandomConfiguration rng w' w.handles.length n = sampleRandomConfiguration rng w' src n ∧
    w'.spaces = w.spaces := by
  have hlt : src < w.handles.length := (List.getElem?_eq_some_iff.1 hsrc).1
  simp [holderInit, hsrc, finalSeed, sampleRandomConfiguration, List.getElem?_append_left hlt]

/-- **C08** the derived seed is a legal numpy seed. -/
theorem C08_seed_range (cls : String) (time : Int) (seed : SeedArg) (k : Nat)
    (h : finalSeed md5 cls time seed = some k) : k < 2 ^ 31 := by
  cases seed <;> simp only [finalSeed, Option.some.injEq, reduceCtorEq] at h <;> omega

/-- **C08** different integer seeds with the same residue, and only those, give the same derived seed: seeds in
`[0, 2^31)` are never confused for one class. -/
theorem C08_seed_injective (cls : String) (t₁ t₂ : Int) (a b : Int) (ha : 0 ≤ a) (ha' : a < 2 ^ 31) (hb : 0 ≤ b)
    (hb' : b < 2 ^ 31) (h : finalSeed md5 cls t₁ (.int a) = finalSeed md5 cls t₂ (.int b)) : a = b := by
  simp only [finalSeed, Option.some.injEq] at h
  have h1 := Int.emod_nonneg ((md5 cls : Int) + a) (show (2 ^ 31 : Int) ≠ 0 by norm_num)
  have h2 := Int.emod_nonneg ((md5 cls : Int) + b) (show (2 ^ 31 : Int) ≠ 0 by norm_num)
  have h3 : ((md5 cls : Int) + a) % 2 ^ 31 = ((md5 cls : Int) + b) % 2 ^ 31 := by omega
  omega

/-- **C08** the class counts: with one integer seed, components of two classes get the same derived seed exactly if the digests of the class
names agree modulo `2^31`. -/
theorem C08_class_matters (cls₁ cls₂ : String) (t₁ t₂ : Int) (z : Int) :
    finalSeed md5 cls₁ t₁ (.int z) = finalSeed md5 cls₂ t₂ (.int z) ↔ md5 cls₁ % 2 ^ 31 = md5 cls₂ % 2 ^ 31 := by
  simp only [finalSeed, Option.some.injEq]
  omega

/-- **C08** what a component with an integer seed draws: the stream of a generator that was seeded with the digest of its class name plus the
seed, modulo `2^31`, whatever the program does otherwise. -/
theorem C08_stream {w : World K S} (hw : Spec.World.Valid w) {src r : Nat} {sp : SpaceObj K S} (hsrc : w.handles[src]? = some r)
    (hsp : w.spaces[r]? = some sp) (cls : String) (z : Int) (t : Int) (ops : List HOp) (hn : NotShared w.handles.length ops) :
    ∃ k : Nat, k < 2 ^ 31 ∧ (2 ^ 31 : Int) ∣ (md5 cls : Int) + z - k ∧
      results w.handles.length (hrun rng md5 (holderInit rng md5 w src cls (.int z) t) ops).2 =
        stream rng sp.hps (rng.seed sp.hps k) (requests w.handles.length ops) := by
  obtain ⟨v, a, b, c⟩ := build_own (rng := rng) (md5 := md5) hw hsrc hsp (cls := cls) (seed := .int z) (time := t) rfl
  refine ⟨_, C08_seed_range (md5 := md5) cls t (.int z) _ rfl, ?_, isolated_results ops _ _ _ _ v a b c hn⟩
  omega

/-- non-vacuity: a counter as generator, an original space and two components of the same class and seed, used in an
interleaving with the original. -/
example :
    let rng : Rng ℚ Nat Nat := ⟨fun _ k => k, fun _ s _ => (s, s + 1)⟩
    let w : World ℚ Nat := ⟨[⟨[⟨"x", .float 0 1 false⟩], 7⟩], [0]⟩
    Spec.World.Valid w ∧
    (hrun rng (fun _ => 5) w [.build 0 "ICE" (.int 3) 0, .draw 1 1, .draw 0 1, .draw 1 1, .build 1 "ICE" (.int 3) 9, .draw 2 1, .draw 0 1, .draw 2 1]).2
      = [(1, 8), (0, 7), (1, 9), (2, 8), (0, 8), (2, 9)] := by
  refine ⟨?_, by decide +kernel⟩
  intro r hr; simp at hr; simp [hr]

end PyPDP
