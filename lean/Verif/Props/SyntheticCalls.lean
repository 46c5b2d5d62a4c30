/-
C144: calling the synthetic functions on their default config spaces.
-/
import Verif.Model.SyntheticClasses
import Verif.Props.Blackbox
import Verif.Props.SyntheticExact
import Verif.Props.CrossInTrayDigits

namespace PyPDP
open Spec

/-- the names `x1, ..., xd` -/
def axisNames (d : Nat) : List String := (List.range d).map fun i => "x" ++ toString (i + 1)

theorem axisNames_nodup (d : Nat) : (axisNames d).Nodup :=
  List.Nodup.map (fun a b h => by have := name_inj h; omega) List.nodup_range

/-- `d` float axes `x1, ..., xd` with the same bounds, in any order -/
def CubeSpace (d : Nat) (l u : ℝ) (cs : ConfigSpace ℝ) : Prop :=
  (cs.map Hp.name).Perm (axisNames d) ∧ ∀ hp ∈ cs, hp.kind = .float l u false

theorem cubeSpace_of {order : SpaceOrder ℝ} (horder : ∀ l, (order l).Perm l) (d : Nat) {l u : ℝ} (hlu : l < u) :
    ∃ cs, configSpaceNd order (d : ℝ) (.scalar l) (.scalar u) (.scalar false) = .ok cs ∧ CubeSpace d l u cs := by
  obtain ⟨cs, h1, h2, h3, h4, h5⟩ := C10_scalar order horder d l u false "x" (.inr ⟨hlu, by simp⟩)
  refine ⟨cs, h1, ?_, ?_⟩
  · refine (List.perm_ext_iff_of_nodup h3 (axisNames_nodup d)).2 fun n => ?_
    simp only [List.mem_map, axisNames, List.mem_range]
    constructor
    · rintro ⟨hp, hm, rfl⟩
      obtain ⟨i, hi1, hi2, hi⟩ := h5 hp hm
      exact ⟨i - 1, by omega, by rw [hi.1, Nat.sub_add_cancel hi1]⟩
    · rintro ⟨i, hi, rfl⟩
      obtain ⟨hp, hm, hs⟩ := h4 (i + 1) (by omega) (by omega)
      exact ⟨hp, hm, hs.1⟩
  · intro hp hm
    obtain ⟨i, -, -, hi⟩ := h5 hp hm
    exact hi.2.2 hlu.ne

/-! ### the configuration a call builds -/

theorem CubeSpace.config {d : Nat} {l u : ℝ} {cs : ConfigSpace ℝ} (h : CubeSpace d l u cs) {kwargs : List (String × Val ℝ)}
    (hl : LegalKwargs cs kwargs) {config : Config ℝ} (h1 : config.values.map Prod.fst = cs.map Hp.name)
    (h2 : ∀ n v, (n, v) ∈ kwargs ↔ (n, v) ∈ config.values) :
    ∃ ρ : Assignment, config.values = (assignConfig cs ρ).values ∧ (∀ n v, (n, v) ∈ kwargs → v = .num (ρ n)) ∧
      ∀ hp ∈ cs, l ≤ ρ hp.name ∧ ρ hp.name ≤ u ∧ (hp.name, .num (ρ hp.name)) ∈ kwargs := by
  have hnd : (config.values.map Prod.fst).Nodup := by
    rw [h1]; exact h.1.nodup_iff.2 (axisNames_nodup d)
  have huniq : ∀ n v v', (n, v) ∈ config.values → (n, v') ∈ config.values → v = v' := by
    intro n v v' ha hb
    have := List.inj_on_of_nodup_map hnd ha hb rfl
    exact (Prod.mk.inj this).2
  have hleg : ∀ hp ∈ cs, ∃ x, (hp.name, Val.num x) ∈ kwargs ∧ l ≤ x ∧ x ≤ u := by
    intro hp hm
    obtain ⟨v, hv, hlg⟩ := hl.2 hp hm
    unfold Hp.legal at hlg
    rw [h.2 hp hm] at hlg
    cases v with
    | num x => exact ⟨x, hv, by simpa using hlg⟩
    | str s => simp at hlg
  classical
  obtain ⟨ρ, hρ⟩ : ∃ ρ : Assignment, ∀ n x, (n, Val.num x) ∈ kwargs → ρ n = x := by
    refine ⟨fun n => if hx : ∃ x, (n, Val.num x) ∈ kwargs then hx.choose else 0, fun n x hx => ?_⟩
    have he : ∃ x, (n, Val.num x) ∈ kwargs := ⟨x, hx⟩
    dsimp only
    rw [dif_pos he]
    have := huniq n _ _ ((h2 _ _).1 he.choose_spec) ((h2 _ _).1 hx)
    simpa using this
  have hnum : ∀ n v, (n, v) ∈ kwargs → v = .num (ρ n) := by
    intro n v hv
    obtain ⟨hp, hm, hn⟩ := hl.1 _ hv
    obtain ⟨x, hx, -⟩ := hleg hp hm
    dsimp only at hn
    rw [hn] at hx
    rw [huniq n _ _ ((h2 _ _).1 hv) ((h2 _ _).1 hx), hρ n x hx]
  refine ⟨ρ, ?_, hnum, ?_⟩
  · have e1 : config.values = config.values.map fun p => (p.1, Val.num (ρ p.1)) := by
      conv_lhs => rw [← List.map_id config.values]
      apply List.map_congr_left
      rintro ⟨n, v⟩ hp
      simp [hnum n v ((h2 _ _).2 hp)]
    rw [e1, assignConfig]
    have : (config.values.map fun p => (p.1, Val.num (ρ p.1))) = (config.values.map Prod.fst).map fun n => (n, Val.num (ρ n)) := by
      rw [List.map_map]; rfl
    rw [this, h1, List.map_map]
    rfl
  · intro hp hm
    obtain ⟨x, hx, hb⟩ := hleg hp hm
    rw [hρ _ _ hx]
    exact ⟨hb.1, hb.2, hx⟩

theorem SynthClass.value_congr (k : SynthClass) (cs : ConfigSpace ℝ) {c c' : Config ℝ} (h : c.values = c'.values) : k.value cs c = k.value cs c' := by
  have hi : ∀ n, c.item n = c'.item n := fun n => by rw [Config.item, Config.item, Config.get?, Config.get?, h]
  cases k <;> simp only [SynthClass.value, squareValue, negativeSquareValue, configNums, levyValue, ackleyValue, configCoords, styblinskiTangValue, h, hi]

theorem cross_congr {c c' : Config ℝ} (h : c.values = c'.values) : crossInTrayValue c = crossInTrayValue c' := by
  have hi : ∀ n, c.item n = c'.item n := fun n => by rw [Config.item, Config.item, Config.get?, Config.get?, h]
  simp only [crossInTrayValue, hi]

/-! ### its value -/

theorem CubeSpace.length {d : Nat} {l u : ℝ} {cs : ConfigSpace ℝ} (h : CubeSpace d l u cs) : List.length cs = d := by
  have := h.1.length_eq
  simpa [axisNames] using this

theorem CubeSpace.item {d : Nat} {l u : ℝ} {cs : ConfigSpace ℝ} (h : CubeSpace d l u cs) (ρ : Assignment) {i : Nat} (hi : i < d) :
    (assignConfig cs ρ).item ("x" ++ toString (i + 1)) = .ok (.num (ρ ("x" ++ toString (i + 1)))) := by
  have : "x" ++ toString (i + 1) ∈ cs.map Hp.name := by
    rw [h.1.mem_iff, axisNames]
    exact List.mem_map_of_mem (f := fun i => "x" ++ toString (i + 1)) (List.mem_range.2 hi)
  obtain ⟨hp, hm, hn⟩ := List.mem_map.1 this
  rw [← hn]
  exact assign_item ρ hm

theorem CubeSpace.coords {d : Nat} {l u : ℝ} {cs : ConfigSpace ℝ} (h : CubeSpace d l u cs) (ρ : Assignment) :
    configCoords d (assignConfig cs ρ) = .ok ((axisNames d).map ρ) := by
  rw [axisNames, List.map_map]
  apply mapM_ok_map
  intro i hi
  rw [h.item ρ (List.mem_range.1 hi)]
  rfl

theorem CubeSpace.nums (cs : ConfigSpace ℝ) (ρ : Assignment) : configNums (assignConfig cs ρ) = .ok ((cs.map Hp.name).map ρ) := by
  have : configNums (assignConfig cs ρ) = .ok ((assignConfig cs ρ).values.map fun p => match p.2 with | .num x => x | .str _ => 0) := by
    apply mapM_ok_map
    intro p hp
    simp only [assignConfig, List.mem_map] at hp
    obtain ⟨i, _, rfl⟩ := hp
    rfl
  rw [this, assignConfig, List.map_map, List.map_map]
  rfl

/-- the function of a class as a function of the list of the coordinates -/
theorem CubeSpace.value {d : Nat} {l u : ℝ} {cs : ConfigSpace ℝ} (h : CubeSpace d l u cs) (ρ : Assignment) (k : SynthClass) (hk : k ≠ .styblinskiTang) :
    k.value cs (assignConfig cs ρ) = k.value cs (ndConfig ((axisNames d).map ρ)) := by
  have hl : ((axisNames d).map ρ).length = d := by simp [axisNames]
  have hsum : (((cs.map Hp.name).map ρ).map fun x => x ^ 2).sum = (((axisNames d).map ρ).map fun x => x ^ 2).sum :=
    ((h.1.map ρ).map fun x => x ^ 2).sum_eq
  cases k with
  | square => simp only [SynthClass.value, squareValue, CubeSpace.nums, ndConfig_nums, Py.ok_bind, hsum]
  | negativeSquare => simp only [SynthClass.value, negativeSquareValue, CubeSpace.nums, ndConfig_nums, Py.ok_bind, hsum]
  | levy => simp only [SynthClass.value, levyValue, h.length, h.coords ρ, ndConfig_coords hl]
  | ackley => simp only [SynthClass.value, ackleyValue, h.length, h.coords ρ, ndConfig_coords hl]
  | styblinskiTang => exact absurd rfl hk

/-- What a call returns, for any function whose values depend only on the values of the configuration. -/
theorem CubeSpace.call {d : Nat} {l u : ℝ} {cs : ConfigSpace ℝ} (h : CubeSpace d l u cs) (inv : Hp ℝ → Val ℝ → ℝ) {value : Config ℝ → Py ℝ}
    (hvalue : ∀ c c' : Config ℝ, c.values = c'.values → value c = value c') {kwargs : List (String × Val ℝ)} (hkw : (kwargs.map Prod.fst).Nodup)
    (hl : LegalKwargs cs kwargs) :
    ∃ ρ : Assignment, (BlackboxFn.mk cs value).call inv kwargs = value (assignConfig cs ρ) ∧ (∀ n ∈ axisNames d, l ≤ ρ n ∧ ρ n ≤ u) ∧
      ∀ a, (∀ p ∈ kwargs, p.2 = .num a) ↔ ∀ n ∈ axisNames d, ρ n = a := by
  obtain ⟨config, h1, h2, h3⟩ := C11_legal inv ⟨cs, value⟩ hkw hl
  obtain ⟨ρ, e1, e2, e3⟩ := h.config hl h2 h3
  have hmem : ∀ n ∈ axisNames d, ∃ hp ∈ cs, hp.name = n := fun n hn => List.mem_map.1 (h.1.mem_iff.2 hn)
  refine ⟨ρ, by rw [h1]; exact hvalue _ _ e1, ?_, fun a => ⟨fun hp n hn => ?_, fun hn p hp => ?_⟩⟩
  · intro n hn
    obtain ⟨hp, hm, rfl⟩ := hmem n hn
    exact ⟨(e3 hp hm).1, (e3 hp hm).2.1⟩
  · obtain ⟨q, hm, rfl⟩ := hmem n hn
    have := hp _ (e3 q hm).2.2
    simpa using this
  · obtain ⟨q, hm, hq⟩ := hl.1 p hp
    rw [e2 p.1 p.2 hp, hn p.1 (hq ▸ h.1.mem_iff.1 (List.mem_map_of_mem hm))]

/-- calling with the same number for every hyperparameter -/
def constantArgs (d : Nat) (a : ℝ) : List (String × Val ℝ) := (axisNames d).map fun n => (n, .num a)

theorem CubeSpace.constantArgs {d : Nat} {l u a : ℝ} {cs : ConfigSpace ℝ} (h : CubeSpace d l u cs) (h1 : l ≤ a) (h2 : a ≤ u) :
    ((constantArgs d a).map Prod.fst).Nodup ∧ LegalKwargs cs (constantArgs d a) ∧ ∀ p ∈ constantArgs d a, p.2 = .num a := by
  unfold PyPDP.constantArgs
  refine ⟨?_, ⟨?_, ?_⟩, ?_⟩
  · rw [List.map_map]
    exact (List.map_id (axisNames d)).symm ▸ axisNames_nodup d
  · intro p hp
    obtain ⟨n, hn, rfl⟩ := List.mem_map.1 hp
    exact List.mem_map.1 (h.1.mem_iff.2 hn)
  · intro hp hm
    refine ⟨.num a, List.mem_map_of_mem (h.1.mem_iff.1 (List.mem_map_of_mem hm)), ?_⟩
    unfold Hp.legal
    rw [h.2 hp hm]
    simp [h1, h2]
  · intro p hp
    obtain ⟨n, hn, rfl⟩ := List.mem_map.1 hp
    rfl

/-! ### C144 -/

theorem forN_eq {order : SpaceOrder ℝ} (horder : ∀ l, (order l).Perm l) (k : SynthClass) (d : Nat) :
    ∃ cs, k.forN order d none none = .ok ⟨cs, k.value cs⟩ ∧ CubeSpace d k.defaultLower k.defaultUpper cs := by
  have hlt : k.defaultLower < k.defaultUpper := by cases k <;> norm_num [SynthClass.defaultLower, SynthClass.defaultUpper]
  obtain ⟨cs, h1, h2⟩ := cubeSpace_of horder d hlt
  refine ⟨cs, ?_, h2⟩
  simp only [SynthClass.forN, forNDimensions, Option.getD_none, h1, Py.ok_bind]
  rfl

/-- **C144** `for_n_dimensions(d)` of `Square`, `Levy` and `Ackley` gives a function of `x1, ..., xd` on the documented domain; every legal call
returns a number that is not negative, and zero exactly if all arguments have the documented value; such a call is legal. -/
theorem C144_minimum {order : SpaceOrder ℝ} (horder : ∀ l, (order l).Perm l) (inv : Hp ℝ → Val ℝ → ℝ) {k : SynthClass} {l u a : ℝ}
    (hk : k = .square ∧ l = -5 ∧ u = 5 ∧ a = 0 ∨ k = .levy ∧ l = -10 ∧ u = 10 ∧ a = 1 ∨ k = .ackley ∧ l = -32.768 ∧ u = 32.768 ∧ a = 0)
    {d : Nat} (hd : 1 ≤ d) :
    ∃ f, k.forN order d none none = .ok f ∧ CubeSpace d l u f.cs ∧
      (∀ kwargs, (kwargs.map Prod.fst).Nodup → LegalKwargs f.cs kwargs →
        ∃ y, f.call inv kwargs = .ok y ∧ 0 ≤ y ∧ (y = 0 ↔ ∀ p ∈ kwargs, p.2 = .num a)) ∧
      f.call inv (constantArgs d a) = .ok 0 := by
  obtain ⟨cs, h1, h2⟩ := forN_eq horder k d
  have hlu : k.defaultLower = l ∧ k.defaultUpper = u ∧ l ≤ a ∧ a ≤ u := by
    rcases hk with ⟨rfl, rfl, rfl, rfl⟩ | ⟨rfl, rfl, rfl, rfl⟩ | ⟨rfl, rfl, rfl, rfl⟩ <;>
      norm_num [SynthClass.defaultLower, SynthClass.defaultUpper]
  obtain ⟨rfl, rfl, ha1, ha2⟩ := hlu
  have hst : k ≠ .styblinskiTang := by rcases hk with ⟨rfl, -⟩ | ⟨rfl, -⟩ | ⟨rfl, -⟩ <;> simp
  have key : ∀ xs : List ℝ, xs.length = d → ∃ y, k.value cs (ndConfig xs) = .ok y ∧ 0 ≤ y ∧ (y = 0 ↔ ∀ x ∈ xs, x = a) := by
    intro xs hxs
    have hcl : List.length cs = xs.length := by rw [h2.length, hxs]
    rcases hk with ⟨rfl, -, -, rfl⟩ | ⟨rfl, -, -, rfl⟩ | ⟨rfl, -, -, rfl⟩
    · obtain ⟨y, e1, e2, e3, -⟩ := C12_square xs
      exact ⟨y, e1, e2, e3⟩
    · rw [SynthClass.value, hcl]
      exact C13_levy xs (hxs ▸ hd)
    · rw [SynthClass.value, hcl]
      exact C14_ackley xs (hxs ▸ hd)
  have main : ∀ kwargs, (kwargs.map Prod.fst).Nodup → LegalKwargs cs kwargs →
      ∃ y, (BlackboxFn.mk cs (k.value cs)).call inv kwargs = .ok y ∧ 0 ≤ y ∧ (y = 0 ↔ ∀ p ∈ kwargs, p.2 = .num a) := by
    intro kwargs hnd hl
    obtain ⟨ρ, e1, -, e3⟩ := h2.call inv (fun c c' => k.value_congr cs) hnd hl
    obtain ⟨y, g1, g2, g3⟩ := key ((axisNames d).map ρ) (by simp [axisNames])
    refine ⟨y, by rw [e1, h2.value ρ k hst, g1], g2, ?_⟩
    rw [g3, e3]
    simp
  refine ⟨_, h1, h2, main, ?_⟩
  obtain ⟨c1, c2, c3⟩ := h2.constantArgs ha1 ha2
  obtain ⟨y, g1, -, g3⟩ := main _ c1 c2
  rw [g1, g3.2 c3]

/-- **C144** `NegativeSquare` is at most 1, and 1 exactly at the origin. -/
theorem C144_maximum {order : SpaceOrder ℝ} (horder : ∀ l, (order l).Perm l) (inv : Hp ℝ → Val ℝ → ℝ) (d : Nat) :
    ∃ f, SynthClass.negativeSquare.forN order d none none = .ok f ∧ CubeSpace d (-5) 5 f.cs ∧
      (∀ kwargs, (kwargs.map Prod.fst).Nodup → LegalKwargs f.cs kwargs →
        ∃ y, f.call inv kwargs = .ok y ∧ y ≤ 1 ∧ (y = 1 ↔ ∀ p ∈ kwargs, p.2 = .num 0)) ∧
      f.call inv (constantArgs d 0) = .ok 1 := by
  obtain ⟨cs, h1, h2⟩ := forN_eq horder .negativeSquare d
  have main : ∀ kwargs, (kwargs.map Prod.fst).Nodup → LegalKwargs cs kwargs →
      ∃ y, (BlackboxFn.mk cs (SynthClass.negativeSquare.value cs)).call inv kwargs = .ok y ∧ y ≤ 1 ∧ (y = 1 ↔ ∀ p ∈ kwargs, p.2 = .num 0) := by
    intro kwargs hnd hl
    obtain ⟨ρ, e1, -, e3⟩ := h2.call inv (fun c c' => SynthClass.negativeSquare.value_congr cs) hnd hl
    obtain ⟨-, y, -, g1, -, g2, g3⟩ := C12_negative_square ((axisNames d).map ρ)
    refine ⟨y, by rw [e1, h2.value ρ _ (by simp)]; exact g1, g2, ?_⟩
    rw [g3, e3]
    simp
  refine ⟨_, h1, h2, main, ?_⟩
  obtain ⟨c1, c2, c3⟩ := h2.constantArgs (a := 0) (by norm_num [SynthClass.defaultLower]) (by norm_num [SynthClass.defaultUpper])
  obtain ⟨y, g1, -, g3⟩ := main _ c1 c2
  rw [g1, g3.2 c3]

/-- **C144** `StyblinskiTang`: one minimiser `a` (the same in every coordinate and dimension) and the minimum `m` per dimension. -/
theorem C144_styblinski_tang : ∃ a m : ℝ, -2.903535 < a ∧ a < -2.903534 ∧ -39.16617 ≤ m ∧ m < -39.16616 ∧
    ∀ {order : SpaceOrder ℝ} (_ : ∀ l, (order l).Perm l) (inv : Hp ℝ → Val ℝ → ℝ) (d : Nat),
      ∃ f, SynthClass.styblinskiTang.forN order d none none = .ok f ∧ CubeSpace d (-5) 5 f.cs ∧
        (∀ kwargs, (kwargs.map Prod.fst).Nodup → LegalKwargs f.cs kwargs →
          ∃ y, f.call inv kwargs = .ok y ∧ m * d ≤ y ∧ (y = m * d ↔ ∀ p ∈ kwargs, p.2 = .num a)) ∧
        f.call inv (constantArgs d a) = .ok (m * d) := by
  obtain ⟨a, m, b1, b2, b3, b4, hmin⟩ := C16_unique_minimum
  refine ⟨a, m, b1, b2, b3, b4, fun {order} horder inv d => ?_⟩
  obtain ⟨cs, h1, h2⟩ := forN_eq horder .styblinskiTang d
  have main : ∀ kwargs, (kwargs.map Prod.fst).Nodup → LegalKwargs cs kwargs →
      ∃ y, (BlackboxFn.mk cs (SynthClass.styblinskiTang.value cs)).call inv kwargs = .ok y ∧ m * d ≤ y ∧ (y = m * d ↔ ∀ p ∈ kwargs, p.2 = .num a) := by
    intro kwargs hnd hl
    obtain ⟨ρ, e1, -, e3⟩ := h2.call inv (fun c c' => SynthClass.styblinskiTang.value_congr cs) hnd hl
    obtain ⟨y, g1, g2, g3⟩ := hmin cs ρ
    rw [h2.length] at g2 g3
    refine ⟨y, by rw [e1]; exact g1, g2, ?_⟩
    rw [g3, e3]
    constructor
    · intro hh n hn
      obtain ⟨hp, hm, rfl⟩ := List.mem_map.1 (h2.1.mem_iff.2 hn)
      exact hh hp hm
    · intro hh hp hm
      exact hh _ (h2.1.mem_iff.1 (List.mem_map_of_mem hm))
  refine ⟨_, h1, h2, main, ?_⟩
  obtain ⟨c1, c2, c3⟩ := h2.constantArgs (a := a) (by norm_num [SynthClass.defaultLower]; linarith) (by norm_num [SynthClass.defaultUpper]; linarith)
  obtain ⟨y, g1, -, g3⟩ := main _ c1 c2
  rw [g1, g3.2 c3]

theorem cross_assign {l u : ℝ} {cs : ConfigSpace ℝ} (h : CubeSpace 2 l u cs) (ρ : Assignment) :
    crossInTrayValue (assignConfig cs ρ) = crossInTrayValue (ndConfig [ρ "x1", ρ "x2"]) := by
  have i1 := h.item ρ (i := 0) (by norm_num)
  have i2 := h.item ρ (i := 1) (by norm_num)
  have j1 := ndConfig_item (xs := [ρ "x1", ρ "x2"]) (i := 0) (by simp)
  have j2 := ndConfig_item (xs := [ρ "x1", ρ "x2"]) (i := 1) (by simp)
  have n1 : "x" ++ toString (0 + 1) = "x1" := by decide
  have n2 : "x" ++ toString (1 + 1) = "x2" := by decide
  rw [n1] at i1 j1
  rw [n2] at i2 j2
  simp only [crossInTrayValue, i1, i2, j1, j2, List.getD_cons_zero, List.getD_cons_succ]

/-- **C144** `CrossInTray()`: the minimum, and the four calls that give it. -/
theorem C144_cross_in_tray {order : SpaceOrder ℝ} (horder : ∀ l, (order l).Perm l) (inv : Hp ℝ → Val ℝ → ℝ) :
    ∃ f a m, crossInTrayInit order (-10) 10 = .ok f ∧ CubeSpace 2 (-10) 10 f.cs ∧ 1.3494 < a ∧ a < 1.34941 ∧ -2.062613 < m ∧ m < -2.062611 ∧
      (∀ kwargs, (kwargs.map Prod.fst).Nodup → LegalKwargs f.cs kwargs →
        ∃ y, f.call inv kwargs = .ok y ∧ m ≤ y ∧ (y = m ↔ ∀ p ∈ kwargs, p.2 = .num a ∨ p.2 = .num (-a))) ∧
      f.call inv (constantArgs 2 a) = .ok m := by
  obtain ⟨cs, h1, h2⟩ := cubeSpace_of horder 2 (show (-10 : ℝ) < 10 by norm_num)
  obtain ⟨-, -, m, -, hm, -⟩ := C15_minimum (x := 0) (y := 0) (by norm_num) (by norm_num)
  obtain ⟨b1, b2, b3, b4⟩ := C15_digits hm
  obtain ⟨a, ha⟩ : ∃ a, a = Real.arctan (Real.pi * Real.sqrt 2) := ⟨_, rfl⟩
  have main : ∀ kwargs, (kwargs.map Prod.fst).Nodup → LegalKwargs cs kwargs →
      ∃ y, (BlackboxFn.mk cs crossInTrayValue).call inv kwargs = .ok y ∧ m ≤ y ∧ (y = m ↔ ∀ p ∈ kwargs, p.2 = .num a ∨ p.2 = .num (-a)) := by
    intro kwargs hnd hl
    obtain ⟨config, c1, c2, c3⟩ := C11_legal inv ⟨cs, crossInTrayValue⟩ hnd hl
    obtain ⟨ρ, e1, e2, e3⟩ := h2.config hl c2 c3
    have hmem : ∀ n, n = "x1" ∨ n = "x2" → ∃ hp ∈ cs, hp.name = n := fun n hn =>
      List.mem_map.1 (h2.1.mem_iff.2 (by rcases hn with rfl | rfl <;> decide))
    have hb : ∀ n, n = "x1" ∨ n = "x2" → |ρ n| ≤ 10 ∧ (n, Val.num (ρ n)) ∈ kwargs := by
      intro n hn
      obtain ⟨hp, hm, rfl⟩ := hmem n hn
      obtain ⟨g1, g2, g3⟩ := e3 hp hm
      exact ⟨abs_le.2 ⟨g1, g2⟩, g3⟩
    obtain ⟨hx, kx⟩ := hb "x1" (.inl rfl)
    obtain ⟨hy, ky⟩ := hb "x2" (.inr rfl)
    obtain ⟨-, v, m', hv, hm', hle⟩ := C15_minimum hx hy
    rw [hm] at hm'
    obtain rfl := Except.ok.inj hm'
    refine ⟨v, by rw [c1]; exact (cross_congr e1).trans ((cross_assign h2 ρ).trans hv), hle, ?_⟩
    rw [C15_minimisers hx hy hv hm, ← ha]
    have habs : ∀ t : ℝ, |t| = a ↔ t = a ∨ t = -a := fun t => abs_eq (by rw [ha]; linarith)
    rw [habs, habs]
    constructor
    · rintro ⟨g1, g2⟩ p hp
      obtain ⟨q, hq, hn⟩ := hl.1 p hp
      have hn2 : p.1 ∈ axisNames 2 := hn ▸ h2.1.mem_iff.1 (List.mem_map_of_mem hq)
      have hn3 : p.1 = "x1" ∨ p.1 = "x2" := by
        have : axisNames 2 = ["x1", "x2"] := by decide
        rw [this] at hn2
        simpa using hn2
      rw [e2 p.1 p.2 hp]
      rcases hn3 with e | e <;> rw [e] <;> simpa using (by assumption)
    · intro hp
      have g1 := hp _ kx
      have g2 := hp _ ky
      simpa using And.intro g1 g2
  refine ⟨⟨cs, crossInTrayValue⟩, a, m, ?_, h2, by rw [ha]; exact b3, by rw [ha]; exact b4, b1, b2, main, ?_⟩
  · have h1' : configSpaceNd order (2 : ℝ) (.scalar (-10)) (.scalar 10) (.scalar false) = .ok cs := by exact_mod_cast h1
    simp only [crossInTrayInit, h1', Py.ok_bind]
    rfl
  · obtain ⟨c1, c2, c3⟩ := h2.constantArgs (a := a) (by rw [ha]; linarith) (by rw [ha]; linarith)
    obtain ⟨y, g1, -, g3⟩ := main _ c1 c2
    rw [g1, g3.2 fun p hp => .inl (c3 p hp)]

/-- **C144** which calls are legal, without reference to the config space: the names are `x1, ..., xd`, each once, with a number in the domain.
Every other call raises a ValueError. -/
theorem C144_legal_iff {d : Nat} {l u : ℝ} {f : BlackboxFn ℝ} (h : CubeSpace d l u f.cs) (inv : Hp ℝ → Val ℝ → ℝ) (kwargs : List (String × Val ℝ)) :
    (LegalKwargs f.cs kwargs ↔
      (∀ p ∈ kwargs, p.1 ∈ axisNames d) ∧ ∀ n ∈ axisNames d, ∃ x, (n, Val.num x) ∈ kwargs ∧ l ≤ x ∧ x ≤ u) ∧
    (¬ LegalKwargs f.cs kwargs → f.call inv kwargs = .error .value) := by
  refine ⟨⟨fun hl => ⟨fun p hp => ?_, fun n hn => ?_⟩, fun hl => ⟨fun p hp => List.mem_map.1 (h.1.mem_iff.2 (hl.1 p hp)), fun hp hm => ?_⟩⟩,
    fun hl => C11_illegal inv f hl⟩
  · obtain ⟨q, hq, hn⟩ := hl.1 p hp
    exact hn ▸ h.1.mem_iff.1 (List.mem_map_of_mem hq)
  · obtain ⟨hp, hm, rfl⟩ := List.mem_map.1 (h.1.mem_iff.2 hn)
    obtain ⟨v, hv, hlg⟩ := hl.2 hp hm
    unfold Hp.legal at hlg
    rw [h.2 hp hm] at hlg
    cases v with
    | num x => exact ⟨x, hv, by simpa using hlg⟩
    | str s => simp at hlg
  · obtain ⟨x, hx, hb⟩ := hl.2 _ (h.1.mem_iff.1 (List.mem_map_of_mem hm))
    refine ⟨_, hx, ?_⟩
    unfold Hp.legal
    rw [h.2 hp hm]
    simpa using hb

/-- **C144** without an argument, a class gives the function of one variable. -/
theorem C144_no_argument (order : SpaceOrder ℝ) (k : SynthClass) : k.init order none = k.forN order ((1 : Nat) : ℝ) none none := by
  simp only [SynthClass.init, SynthClass.forN, forNDimensions, Option.getD_none, Nat.cast_one]

/-- a legal call of `Levy.for_n_dimensions(2)`, in the other order -/
example : ∃ f, SynthClass.levy.forN id (2 : Nat) none none = .ok f ∧
    LegalKwargs f.cs [("x2", .num (-10)), ("x1", .num 3)] := by
  obtain ⟨cs, h1, h2⟩ := forN_eq (order := id) (fun _ => .refl _) .levy 2
  refine ⟨_, h1, ?_, ?_⟩
  · intro p hp
    have : p.1 ∈ axisNames 2 := by
      simp only [List.mem_cons, List.not_mem_nil, or_false] at hp
      rcases hp with rfl | rfl <;> decide
    exact List.mem_map.1 (h2.1.mem_iff.2 this)
  · intro hp hm
    have hn := h2.1.mem_iff.1 (List.mem_map_of_mem hm)
    have e : axisNames 2 = ["x1", "x2"] := by decide
    have hk := h2.2 hp hm
    rw [e] at hn
    simp only [List.mem_cons, List.not_mem_nil, or_false] at hn
    rcases hn with hn | hn
    · refine ⟨.num 3, by simp [hn], ?_⟩
      unfold Hp.legal
      rw [hk]
      norm_num [SynthClass.defaultLower, SynthClass.defaultUpper]
    · refine ⟨.num (-10), by simp [hn], ?_⟩
      unfold Hp.legal
      rw [hk]
      norm_num [SynthClass.defaultLower, SynthClass.defaultUpper]

end PyPDP
