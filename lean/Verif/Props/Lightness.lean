/-
C98: what adjust_lightness does to the lightness.
-/
import Verif.Props.Colour

namespace PyPDP
open Spec
section C98
variable {K : Type} [Field K] [LinearOrder K] [IsStrictOrderedRing K] [FloorRing K]

/-- among three hues a third of a turn apart, one has the largest and one the smallest value -/
theorem hueValue_extremes (m1 m2 h : K) :
    (hueValue m1 m2 (h + 1 / 3) = m2 ∨ hueValue m1 m2 h = m2 ∨ hueValue m1 m2 (h - 1 / 3) = m2) ∧
    (hueValue m1 m2 (h + 1 / 3) = m1 ∨ hueValue m1 m2 h = m1 ∨ hueValue m1 m2 (h - 1 / 3) = m1) := by
  obtain ⟨t, ht⟩ : ∃ t, t = Int.fract h := ⟨_, rfl⟩
  have h0 : 0 ≤ t := ht ▸ Int.fract_nonneg h
  have h1 : t < 1 := ht ▸ Int.fract_lt_one h
  have hz : h = t + (⌊h⌋ : Int) := by rw [ht]; unfold Int.fract; ring
  have top : ∀ {a s : K}, 1 / 6 ≤ s → s < 1 / 2 → (∃ z : Int, a = s + z) → hueValue m1 m2 a = m2 := fun h6 h2 hh => by
    rw [hueValue_at (by linarith) (by linarith) hh, if_neg (by linarith), if_pos (by linarith)]
  have low : ∀ {a s : K}, 2 / 3 ≤ s → s < 1 → (∃ z : Int, a = s + z) → hueValue m1 m2 a = m1 := fun h6 h2 hh => by
    rw [hueValue_at (by linarith) (by linarith) hh, if_neg (by linarith), if_neg (by linarith), if_neg (by linarith)]
  have up0 : ∃ z : Int, h + 1 / 3 = (t + 1 / 3) + z := ⟨⌊h⌋, by linarith⟩
  have up1 : ∃ z : Int, h + 1 / 3 = (t - 2 / 3) + z := ⟨⌊h⌋ + 1, by push_cast; linarith⟩
  have dn0 : ∃ z : Int, h - 1 / 3 = (t - 1 / 3) + z := ⟨⌊h⌋, by linarith⟩
  have dn1 : ∃ z : Int, h - 1 / 3 = (t + 2 / 3) + z := ⟨⌊h⌋ - 1, by push_cast; linarith⟩
  rcases lt_or_ge t (1 / 6) with a | a
  · exact ⟨.inl (top (by linarith) (by linarith) up0), .inr (.inr (low (by linarith) (by linarith) dn1))⟩
  rcases lt_or_ge t (1 / 3) with b | b
  · exact ⟨.inr (.inl (top a (by linarith) ⟨_, hz⟩)), .inr (.inr (low (by linarith) (by linarith) dn1))⟩
  rcases lt_or_ge t (1 / 2) with c | c
  · exact ⟨.inr (.inl (top a c ⟨_, hz⟩)), .inl (low (by linarith) (by linarith) up0)⟩
  rcases lt_or_ge t (2 / 3) with d | d
  · exact ⟨.inr (.inr (top (by linarith) (by linarith) dn0)), .inl (low (by linarith) (by linarith) up0)⟩
  rcases lt_or_ge t (5 / 6) with e | e
  · exact ⟨.inr (.inr (top (by linarith) (by linarith) dn0)), .inr (.inl (low d h1 ⟨_, hz⟩))⟩
  · exact ⟨.inl (top (by linarith) (by linarith) up1), .inr (.inl (low d h1 ⟨_, hz⟩))⟩

omit [IsStrictOrderedRing K] [FloorRing K] in
theorem lightness_of {a b c m1 m2 : K} (ha : m1 ≤ a ∧ a ≤ m2) (hb : m1 ≤ b ∧ b ≤ m2) (hc : m1 ≤ c ∧ c ≤ m2) (htop : a = m2 ∨ b = m2 ∨ c = m2)
    (hlow : a = m1 ∨ b = m1 ∨ c = m1) : lightness (a, b, c) = (m2 + m1) / 2 := by
  have e1 : max a (max b c) = m2 := by
    refine le_antisymm (max_le ha.2 (max_le hb.2 hc.2)) ?_
    rcases htop with h | h | h
    · exact h ▸ le_max_left _ _
    · exact h ▸ (le_max_left _ _).trans (le_max_right _ _)
    · exact h ▸ (le_max_right _ _).trans (le_max_right _ _)
  have e2 : min a (min b c) = m1 := by
    refine le_antisymm ?_ (le_min ha.1 (le_min hb.1 hc.1))
    rcases hlow with h | h | h
    · exact h ▸ min_le_left _ _
    · exact h ▸ (min_le_right _ _).trans (min_le_left _ _)
    · exact h ▸ (min_le_right _ _).trans (min_le_right _ _)
  unfold lightness
  rw [e1, e2]

theorem hlsToRgb_lightness {h l s : K} (hl0 : 0 ≤ l) (hl1 : l ≤ 1) (hs0 : 0 ≤ s) : lightness (hlsToRgb h l s) = l := by
  unfold hlsToRgb
  split
  · unfold lightness; simp
  · dsimp only
    obtain ⟨m2, hm2⟩ : ∃ m2, m2 = if l ≤ 1 / 2 then l * (1 + s) else l + s - l * s := ⟨_, rfl⟩
    rw [← hm2]
    have h1 : 2 * l - m2 ≤ m2 := by
      rw [hm2]
      split <;> nlinarith
    have := hueValue_extremes (2 * l - m2) m2 h
    rw [lightness_of (hueValue_mem h1 _) (hueValue_mem h1 _) (hueValue_mem h1 _) this.1 this.2]
    ring

omit [IsStrictOrderedRing K] in
theorem rgbToHls_lightness (c : Rgb K) : (rgbToHls c).2.1 = lightness c := by
  obtain ⟨r, g, b⟩ := c
  unfold rgbToHls lightness
  dsimp only
  rw [← max_assoc, ← min_assoc]
  split <;> rfl

/-- **C98** The lightness of the result is the lightness of the colour times the amount, limited to `[0, 1]`. -/
theorem C98_lightness {c : Rgb K} (hc : ValidRgb c) (amount : K) :
    lightness (adjustLightness c amount) = max 0 (min 1 (amount * lightness c)) := by
  have h1 := (rgbToHls_sat hc).1
  rw [← rgbToHls_lightness c]
  exact hlsToRgb_lightness (le_max_left _ _) (max_le zero_le_one (min_le_left _ _)) h1

theorem lightness_mem {c : Rgb K} (hc : ValidRgb c) : 0 ≤ lightness c ∧ lightness c ≤ 1 := by
  obtain ⟨⟨hr0, hr1⟩, ⟨hg0, hg1⟩, ⟨hb0, hb1⟩⟩ := hc
  have h1 : max c.1 (max c.2.1 c.2.2) ≤ 1 := max_le hr1 (max_le hg1 hb1)
  have h2 : 0 ≤ min c.1 (min c.2.1 c.2.2) := le_min hr0 (le_min hg0 hb0)
  have h3 : min c.1 (min c.2.1 c.2.2) ≤ max c.1 (max c.2.1 c.2.2) := (min_le_left _ _).trans (le_max_left _ _)
  unfold lightness
  constructor <;> linarith

/-- **C98** The documentation ("< 1 -> Lighter, > 1 -> Darker") has it the wrong way round: an amount below 1 makes every colour but black
darker, an amount above 1 makes every colour but black and white lighter. Black stays black. -/
theorem C98_direction {c : Rgb K} (hc : ValidRgb c) (amount : K) :
    (amount < 1 → lightness c ≠ 0 → lightness (adjustLightness c amount) < lightness c) ∧
    (1 < amount → lightness c ≠ 0 → lightness c ≠ 1 → lightness c < lightness (adjustLightness c amount)) ∧
    (lightness c = 0 → adjustLightness c amount = (0, 0, 0)) := by
  obtain ⟨h0, h1⟩ := lightness_mem hc
  refine ⟨fun ha hne => ?_, fun ha hne hw => ?_, fun hb => ?_⟩
  · have hpos := lt_of_le_of_ne h0 hne.symm
    rw [C98_lightness hc]
    exact max_lt hpos ((min_le_right _ _).trans_lt (by nlinarith))
  · have hpos := lt_of_le_of_ne h0 hne.symm
    have hlt := lt_of_le_of_ne h1 hw
    rw [C98_lightness hc]
    exact (lt_min hlt (by nlinarith)).trans_le (le_max_right _ _)
  · have hv := C75_valid hc amount
    have hl := C98_lightness hc amount
    rw [hb, mul_zero, min_eq_right zero_le_one, max_self] at hl
    obtain ⟨⟨hr0, hr1⟩, ⟨hg0, hg1⟩, ⟨hb0, hb1⟩⟩ := hv
    generalize adjustLightness c amount = d at *
    obtain ⟨r, g, b⟩ := d
    unfold lightness at hl
    dsimp only at *
    have k1 : max r (max g b) + min r (min g b) = 0 := by linarith
    have k2 : 0 ≤ min r (min g b) := le_min hr0 (le_min hg0 hb0)
    have k3 := le_max_left r (max g b)
    have k4 := (le_max_left g b).trans (le_max_right r (max g b))
    have k5 := (le_max_right g b).trans (le_max_right r (max g b))
    simp only [Prod.mk.injEq]
    exact ⟨by linarith, by linarith, by linarith⟩

/-- pure red has lightness 1/2; half of it is a dark red, twice of it is white -/
example : lightness ((1, 0, 0) : Rgb ℚ) = 1 / 2 ∧ adjustLightness ((1, 0, 0) : Rgb ℚ) (1 / 2) = (1 / 2, 0, 0) ∧
    adjustLightness ((1, 0, 0) : Rgb ℚ) 2 = (1, 1, 1) := by decide +kernel

end C98
end PyPDP
