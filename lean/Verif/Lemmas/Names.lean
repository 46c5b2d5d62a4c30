/-
Decimal numerals are injective, so the names `x1, x2, ...` are pairwise different.
-/
namespace PyPDP

theorem toString_nat_inj {a b : Nat} (h : toString a = toString b) : a = b := by
  have h1 : a.repr.toList = b.repr.toList := congrArg String.toList h
  rw [Nat.toList_repr, Nat.toList_repr] at h1
  have := congrArg (Nat.ofDigitChars 10 · 0) h1
  simpa [Nat.ofDigitChars_toDigits] using this

theorem name_inj {p : String} {a b : Nat} (h : p ++ toString a = p ++ toString b) : a = b :=
  toString_nat_inj (by simpa using h)

end PyPDP
