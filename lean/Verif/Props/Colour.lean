/-
Colours: C75 (adjust_lightness).
-/
import Verif.Spec.Plotting
import Verif.Lemmas.Py
import Mathlib.Tactic.Linarith
import Mathlib.Tactic.FieldSimp
import Mathlib.Tactic.Ring

namespace PyPDP
open Spec
section C75
variable {K : Type} [Field K] [LinearOrder K] [IsStrictOrderedRing K] [FloorRing K]

theorem hueValue_mem {m1 m2 : K} (h : m1 ≤ m2) (hue : K) : m1 ≤ hueValue m1 m2 hue ∧ hueValue m1 m2 hue ≤ m2 := by
  have h0 := Int.fract_nonneg hue
  unfold hueValue
  dsimp only
  split
  · constructor
    · have := mul_nonneg (sub_nonneg.2 h) h0
      linarith
    · nlinarith
  · split
    · exact ⟨h, le_refl _⟩
    · split
      · constructor <;> nlinarith
      · exact ⟨le_refl _, h⟩

theorem hlsToRgb_valid {h l s : K} (hl0 : 0 ≤ l) (hl1 : l ≤ 1) (hs0 : 0 ≤ s) (hs1 : s ≤ 1) : ValidRgb (hlsToRgb h l s) := by
  unfold hlsToRgb
  split
  · exact ⟨⟨hl0, hl1⟩, ⟨hl0, hl1⟩, ⟨hl0, hl1⟩⟩
  · dsimp only
    obtain ⟨m2, hm2⟩ : ∃ m2, m2 = if l ≤ 1 / 2 then l * (1 + s) else l + s - l * s := ⟨_, rfl⟩
    rw [← hm2]
    have key : 2 * l - m2 ≤ m2 ∧ 0 ≤ 2 * l - m2 ∧ m2 ≤ 1 := by
      rw [hm2]
      split
      · refine ⟨?_, ?_, ?_⟩ <;> nlinarith
      · rename_i hl
        refine ⟨?_, ?_, ?_⟩ <;> nlinarith
    obtain ⟨h1, h2, h3⟩ := key
    refine ⟨?_, ?_, ?_⟩ <;>
    · have := hueValue_mem h1
      exact ⟨h2.trans (this _).1, (this _).2.trans h3⟩

theorem rgbToHls_sat {c : Rgb K} (hc : ValidRgb c) : 0 ≤ (rgbToHls c).2.2 ∧ (rgbToHls c).2.2 ≤ 1 := by
  obtain ⟨r, g, b⟩ := c
  obtain ⟨⟨hr0, hr1⟩, ⟨hg0, hg1⟩, ⟨hb0, hb1⟩⟩ := hc
  simp only at hr0 hr1 hg0 hg1 hb0 hb1
  unfold rgbToHls
  dsimp only
  obtain ⟨M, hM⟩ : ∃ M, M = max (max r g) b := ⟨_, rfl⟩
  obtain ⟨m, hm⟩ : ∃ m, m = min (min r g) b := ⟨_, rfl⟩
  rw [← hM, ← hm]
  have h1 : m ≤ M := by rw [hm, hM]; exact (min_le_right _ _).trans (le_max_right _ _)
  have h2 : 0 ≤ m := by rw [hm]; exact le_min (le_min hr0 hg0) hb0
  have h3 : M ≤ 1 := by rw [hM]; exact max_le (max_le hr1 hg1) hb1
  split
  · simp
  · rename_i hne
    have hlt : m < M := lt_of_le_of_ne h1 hne
    dsimp only
    split
    · have hp : 0 < M + m := by linarith
      exact ⟨div_nonneg (by linarith) hp.le, (div_le_one hp).2 (by linarith)⟩
    · rename_i hl
      have hp : 0 < 2 - M - m := by linarith
      exact ⟨div_nonneg (by linarith) hp.le, (div_le_one hp).2 (by linarith)⟩

/-- **C75** whatever the amount, a valid colour is turned into a valid colour. -/
theorem C75_valid {c : Rgb K} (hc : ValidRgb c) (amount : K) : ValidRgb (adjustLightness c amount) := by
  obtain ⟨h1, h2⟩ := rgbToHls_sat hc
  exact hlsToRgb_valid (le_max_left _ _) (max_le zero_le_one (min_le_left _ _)) h1 h2

/-- the value for a hue `t` in `[0, 1)`, up to whole turns -/
theorem hueValue_at {m1 m2 a t : K} (h0 : 0 ≤ t) (h1 : t < 1) (h : ∃ z : Int, a = t + z) :
    hueValue m1 m2 a = if t < 1 / 6 then m1 + (m2 - m1) * t * 6 else if t < 1 / 2 then m2
      else if t < 2 / 3 then m1 + (m2 - m1) * (2 / 3 - t) * 6 else m1 := by
  have : Int.fract a = t := by
    obtain ⟨z, hz⟩ := h
    rw [Int.fract_eq_iff]
    exact ⟨h0, h1, z, by rw [hz]; ring⟩
  unfold hueValue
  rw [this]

theorem hue_rise {m1 m2 a w : K} (h0 : 0 ≤ w) (h1 : w ≤ 1) (h : ∃ z : Int, a = w / 6 + z) : hueValue m1 m2 a = m1 + (m2 - m1) * w := by
  rw [hueValue_at (t := w / 6) (by positivity) (by linarith) h]
  by_cases hw : w = 1
  · rw [if_neg (by rw [hw]; exact lt_irrefl _), if_pos (by rw [hw]; norm_num), hw]; ring
  · have : w < 1 := lt_of_le_of_ne h1 hw
    rw [if_pos (by linarith)]; ring

theorem hue_top {m1 m2 a w : K} (h0 : -1 ≤ w) (h1 : w ≤ 1) (h : ∃ z : Int, a = 1 / 3 + w / 6 + z) : hueValue m1 m2 a = m2 := by
  rw [hueValue_at (t := 1 / 3 + w / 6) (by linarith) (by linarith) h, if_neg (by linarith)]
  by_cases hw : w = 1
  · rw [hw, if_neg (by norm_num), if_pos (by norm_num)]; ring
  · have : w < 1 := lt_of_le_of_ne h1 hw
    rw [if_pos (by linarith)]

theorem hue_low {m1 m2 a w : K} (h0 : 0 ≤ w) (h1 : w ≤ 1) (h : ∃ z : Int, a = 2 / 3 + w / 6 + z) : hueValue m1 m2 a = m1 := by
  rw [hueValue_at (t := 2 / 3 + w / 6) (by linarith) (by linarith) h, if_neg (by linarith), if_neg (by linarith), if_neg (by linarith)]

theorem hue_fall {m1 m2 a w : K} (h0 : -1 ≤ w) (h1 : w < 0) (h : ∃ z : Int, a = 2 / 3 + w / 6 + z) :
    hueValue m1 m2 a = m1 - (m2 - m1) * w := by
  rw [hueValue_at (t := 2 / 3 + w / 6) (by linarith) (by linarith) h, if_neg (by linarith), if_neg (by linarith), if_pos (by linarith)]
  ring

theorem hue_end {m1 m2 a w : K} (h0 : -1 ≤ w) (h1 : w < 0) (h : ∃ z : Int, a = w / 6 + z) : hueValue m1 m2 a = m1 := by
  obtain ⟨z, hz⟩ := h
  rw [hueValue_at (t := 1 + w / 6) (by linarith) (by linarith) ⟨z - 1, by rw [hz]; push_cast; ring⟩, if_neg (by linarith),
    if_neg (by linarith), if_neg (by linarith)]

omit [IsStrictOrderedRing K] in
theorem fract_shift (x c : K) : ∃ z : Int, Int.fract x + c = x + c + z := ⟨-⌊x⌋, by unfold Int.fract; push_cast; ring⟩

/-- **C75** amount 1 returns the colour itself. -/
theorem C75_one {c : Rgb K} (hc : ValidRgb c) : adjustLightness c 1 = c := by
  obtain ⟨r, g, b⟩ := c
  obtain ⟨⟨hr0, hr1⟩, ⟨hg0, hg1⟩, ⟨hb0, hb1⟩⟩ := hc
  simp only at hr0 hr1 hg0 hg1 hb0 hb1
  unfold adjustLightness rgbToHls
  dsimp only
  obtain ⟨M, hM⟩ : ∃ M, M = max (max r g) b := ⟨_, rfl⟩
  obtain ⟨m, hm⟩ : ∃ m, m = min (min r g) b := ⟨_, rfl⟩
  rw [← hM, ← hm]
  have hrM : r ≤ M := by rw [hM]; exact (le_max_left _ _).trans (le_max_left _ _)
  have hgM : g ≤ M := by rw [hM]; exact (le_max_right _ _).trans (le_max_left _ _)
  have hbM : b ≤ M := by rw [hM]; exact le_max_right _ _
  have hmr : m ≤ r := by rw [hm]; exact (min_le_left _ _).trans (min_le_left _ _)
  have hmg : m ≤ g := by rw [hm]; exact (min_le_left _ _).trans (min_le_right _ _)
  have hmb : m ≤ b := by rw [hm]; exact min_le_right _ _
  have h2 : 0 ≤ m := by rw [hm]; exact le_min (le_min hr0 hg0) hb0
  have h3 : M ≤ 1 := by rw [hM]; exact max_le (max_le hr1 hg1) hb1
  have hl : max 0 (min 1 (1 * ((M + m) / 2))) = (M + m) / 2 := by
    rw [one_mul, min_eq_right (by linarith), max_eq_right (by linarith)]
  split
  · rename_i heq
    dsimp only
    rw [hl, hlsToRgb, if_pos rfl]
    have e : (M + m) / 2 = M := by rw [heq]; ring
    have e1 : r = M := le_antisymm hrM (heq ▸ hmr)
    have e2 : g = M := le_antisymm hgM (heq ▸ hmg)
    have e3 : b = M := le_antisymm hbM (heq ▸ hmb)
    rw [e, e1, e2, e3]
  · rename_i hne
    have hlt : m < M := lt_of_le_of_ne ((hmr.trans hrM)) hne
    have hR : 0 < M - m := by linarith
    dsimp only
    rw [hl]
    have hch : ∀ h : K, hlsToRgb h ((M + m) / 2) (if (M + m) / 2 ≤ 1 / 2 then (M - m) / (M + m) else (M - m) / (2 - M - m)) =
        (hueValue m M (h + 1 / 3), hueValue m M h, hueValue m M (h - 1 / 3)) := by
      intro h
      have hm1 : 2 * ((M + m) / 2) - M = m := by ring
      by_cases hle : (M + m) / 2 ≤ 1 / 2
      · have hp : 0 < M + m := by linarith
        have e : (M + m) / 2 * (1 + (M - m) / (M + m)) = M := by field_simp; ring
        simp only [hlsToRgb, if_pos hle, e, hm1]
        rw [if_neg (ne_of_gt (div_pos hR hp))]
      · have hp : 0 < 2 - M - m := by linarith
        have e : (M + m) / 2 + (M - m) / (2 - M - m) - (M + m) / 2 * ((M - m) / (2 - M - m)) = M := by
          have := hp.ne'
          field_simp; ring
        simp only [hlsToRgb, if_neg hle, e, hm1]
        rw [if_neg (ne_of_gt (div_pos hR hp))]
    rw [hch]
    have hdiff : ∀ x y : K, (M - x) / (M - m) - (M - y) / (M - m) = (y - x) / (M - m) := by intro x y; rw [← sub_div]; ring
    have hmul : ∀ x : K, (M - m) * (x / (M - m)) = x := by intro x; field_simp
    have hw1 : ∀ x y : K, m ≤ x → y ≤ M → -1 ≤ (x - y) / (M - m) := by
      intro x y hx hy
      rw [le_div_iff₀ hR]; linarith
    have hw2 : ∀ x y : K, x ≤ M → m ≤ y → (x - y) / (M - m) ≤ 1 := by
      intro x y hx hy
      rw [div_le_one hR]; linarith
    have hmin : m = r ∨ m = g ∨ m = b := by
      rw [hm]
      rcases min_choice (min r g) b with h | h
      · rw [h]
        rcases min_choice r g with h | h
        · exact Or.inl h
        · exact Or.inr (Or.inl h)
      · exact Or.inr (Or.inr h)
    have hmax : M = r ∨ M = g ∨ M = b := by
      rw [hM]
      rcases max_choice (max r g) b with h | h
      · rw [h]
        rcases max_choice r g with h | h
        · exact Or.inl h
        · exact Or.inr (Or.inl h)
      · exact Or.inr (Or.inr h)
    have hneg : ∀ x y : K, x < y → (x - y) / (M - m) < 0 := fun x y h => div_neg_of_neg_of_pos (by linarith) hR
    have hpos : ∀ x y : K, y ≤ x → 0 ≤ (x - y) / (M - m) := fun x y h => div_nonneg (by linarith) hR.le
    split
    · rename_i hr
      rw [hdiff b g]
      obtain ⟨w, hw⟩ : ∃ w, w = (g - b) / (M - m) := ⟨_, rfl⟩
      rw [← hw]
      have hRw : (M - m) * w = g - b := by rw [hw, hmul]
      have b1 : -1 ≤ w := hw ▸ hw1 g b hmg hbM
      have b2 : w ≤ 1 := hw ▸ hw2 g b hgM hmb
      have e1 : hueValue m M (Int.fract (w / 6) + 1 / 3) = M := by
        obtain ⟨z, hz⟩ := fract_shift (w / 6) (1 / 3)
        exact hue_top b1 b2 ⟨z, by rw [hz]; ring⟩
      obtain ⟨z, hz⟩ := fract_shift (w / 6) 0
      rw [add_zero] at hz
      obtain ⟨z', hz'⟩ := fract_shift (w / 6) (-(1 / 3))
      rw [← sub_eq_add_neg] at hz'
      rcases le_or_gt b g with h | h
      · have b3 : 0 ≤ w := hw ▸ hpos g b h
        have hmb' : m = b := by
          rcases hmin with e | e | e
          · exact absurd (e.trans hr) hne
          · exact le_antisymm hmb (by rw [e]; exact h)
          · exact e
        rw [e1, hue_rise b3 b2 ⟨z, by rw [hz]; ring⟩, hue_low b3 b2 ⟨z' - 1, by rw [hz']; push_cast; ring⟩]
        rw [hRw]; simp only [Prod.mk.injEq]; exact ⟨by linarith, by linarith, by linarith⟩
      · have b3 : w < 0 := hw ▸ hneg g b h
        have hmb' : m = g := by
          rcases hmin with e | e | e
          · exact absurd (e.trans hr) hne
          · exact e
          · exact absurd (hmg) (by rw [e]; exact not_le.2 h)
        rw [e1, hue_end b1 b3 ⟨z, by rw [hz]; ring⟩, hue_fall b1 b3 ⟨z' - 1, by rw [hz']; push_cast; ring⟩]
        rw [hRw]; simp only [Prod.mk.injEq]; exact ⟨by linarith, by linarith, by linarith⟩
    · rename_i hr
      split
      · rename_i hg
        rw [show 2 + (M - r) / (M - m) - (M - b) / (M - m) = 2 + ((M - r) / (M - m) - (M - b) / (M - m)) by ring, hdiff r b]
        obtain ⟨w, hw⟩ : ∃ w, w = (b - r) / (M - m) := ⟨_, rfl⟩
        rw [← hw]
        have hRw : (M - m) * w = b - r := by rw [hw, hmul]
        have b1 : -1 ≤ w := hw ▸ hw1 b r hmb hrM
        have b2 : w ≤ 1 := hw ▸ hw2 b r hbM hmr
        obtain ⟨z0, hz0⟩ := fract_shift ((2 + w) / 6) 0
        rw [add_zero] at hz0
        have e1 : hueValue m M (Int.fract ((2 + w) / 6)) = M := hue_top b1 b2 ⟨z0, by rw [hz0]; ring⟩
        obtain ⟨z, hz⟩ := fract_shift ((2 + w) / 6) (1 / 3)
        obtain ⟨z', hz'⟩ := fract_shift ((2 + w) / 6) (-(1 / 3))
        rw [← sub_eq_add_neg] at hz'
        rcases le_or_gt r b with h | h
        · have b3 : 0 ≤ w := hw ▸ hpos b r h
          have hmb' : m = r := by
            rcases hmin with e | e | e
            · exact e
            · exact absurd (e.trans hg) hne
            · exact le_antisymm hmr (by rw [e]; exact h)
          rw [e1, hue_low b3 b2 ⟨z, by rw [hz]; ring⟩, hue_rise b3 b2 ⟨z', by rw [hz']; ring⟩]
          rw [hRw]; simp only [Prod.mk.injEq]; exact ⟨by linarith, by linarith, by linarith⟩
        · have b3 : w < 0 := hw ▸ hneg b r h
          have hmb' : m = b := by
            rcases hmin with e | e | e
            · exact absurd (hmb) (by rw [e]; exact not_le.2 h)
            · exact absurd (e.trans hg) hne
            · exact e
          rw [e1, hue_fall b1 b3 ⟨z, by rw [hz]; ring⟩, hue_end b1 b3 ⟨z', by rw [hz']; ring⟩]
          rw [hRw]; simp only [Prod.mk.injEq]; exact ⟨by linarith, by linarith, by linarith⟩
      · rename_i hg
        have hb : b = M := by
          rcases hmax with e | e | e
          · exact absurd e.symm hr
          · exact absurd e.symm hg
          · exact e.symm
        rw [show 4 + (M - g) / (M - m) - (M - r) / (M - m) = 4 + ((M - g) / (M - m) - (M - r) / (M - m)) by ring, hdiff g r]
        obtain ⟨w, hw⟩ : ∃ w, w = (r - g) / (M - m) := ⟨_, rfl⟩
        rw [← hw]
        have hRw : (M - m) * w = r - g := by rw [hw, hmul]
        have b1 : -1 ≤ w := hw ▸ hw1 r g hmr hgM
        have b2 : w ≤ 1 := hw ▸ hw2 r g hrM hmg
        obtain ⟨z0, hz0⟩ := fract_shift ((4 + w) / 6) 0
        rw [add_zero] at hz0
        obtain ⟨z, hz⟩ := fract_shift ((4 + w) / 6) (1 / 3)
        obtain ⟨z', hz'⟩ := fract_shift ((4 + w) / 6) (-(1 / 3))
        rw [← sub_eq_add_neg] at hz'
        have e1 : hueValue m M (Int.fract ((4 + w) / 6) - 1 / 3) = M := hue_top b1 b2 ⟨z', by rw [hz']; ring⟩
        rcases le_or_gt g r with h | h
        · have b3 : 0 ≤ w := hw ▸ hpos r g h
          have hmb' : m = g := by
            rcases hmin with e | e | e
            · exact le_antisymm hmg (by rw [e]; exact h)
            · exact e
            · exact absurd (e.trans hb) hne
          rw [e1, hue_rise b3 b2 ⟨z + 1, by rw [hz]; push_cast; ring⟩, hue_low b3 b2 ⟨z0, by rw [hz0]; ring⟩]
          rw [hRw]; simp only [Prod.mk.injEq]; exact ⟨by linarith, by linarith, by linarith⟩
        · have b3 : w < 0 := hw ▸ hneg r g h
          have hmb' : m = r := by
            rcases hmin with e | e | e
            · exact e
            · exact absurd hmr (by rw [e]; exact not_le.2 h)
            · exact absurd (e.trans hb) hne
          rw [e1, hue_end b1 b3 ⟨z + 1, by rw [hz]; push_cast; ring⟩, hue_fall b1 b3 ⟨z0, by rw [hz0]; ring⟩]
          rw [hRw]; simp only [Prod.mk.injEq]; exact ⟨by linarith, by linarith, by linarith⟩
end C75

example : adjustLightness ((1 / 2, 1, 0) : Rgb ℚ) 1 = (1 / 2, 1, 0) := by decide +kernel
/-- a larger amount makes the colour lighter (the docstring says "> 1 -> Darker") -/
example : adjustLightness ((1 / 2, 0, 0) : Rgb ℚ) (3 / 2) = (3 / 4, 0, 0) := by decide +kernel
example : adjustLightness ((1 / 2, 1 / 4, 0) : Rgb ℚ) 100 = (1, 1, 1) := by decide +kernel
end PyPDP
