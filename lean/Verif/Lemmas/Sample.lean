import Verif.Lemmas.Expr

/-
Concrete objects used by the examples that accompany the theorems on views and expressions.
-/

namespace Spp.Sample
open Spec

/-- Arrays `[1,2,3]`, `[4,5,6]`, and the 2x3 matrix `[[1,2,3],[4,5,6]]`; all other arrays are
empty. -/
def store : Store Int where
  a1 := fun id => if id = 0 then [1, 2, 3] else if id = 1 then [4, 5, 6] else []
  a2 := fun id => if id = 0 then ⟨2, 3, [1, 2, 3, 4, 5, 6]⟩ else ⟨0, 0, []⟩

theorem store_ok : Store.Ok store := by
  constructor
  · intro id
    simp only [store]
    by_cases h0 : id = 0
    · simp [h0]
    · by_cases h1 : id = 1 <;> simp [h0, h1]
  · intro id
    simp only [store]
    by_cases h0 : id = 0
    · rw [if_pos h0]; exact ⟨⟨by decide, by decide, by decide, by decide⟩, by decide⟩
    · rw [if_neg h0]; exact ⟨⟨by decide, by decide, by decide, by decide⟩, by decide⟩

/-- Exact integers. -/
def ints : Arith Int where
  zero := 0
  one := 1
  add x y := .ok (x + y)
  sub x y := .ok (x - y)
  mul x y := .ok (x * y)
  div x y := if y = 0 then .ub else .ok (x / y)
  ofIndex i := .ok i

/-- The 2x3 matrix. -/
def A : Tm Int .two := .lv (.arr2 0)
/-- `[1,2,3]`. -/
def x : Tm Int .one := .lv (.arr1 0)
/-- `[4,5,6]`. -/
def y : Tm Int .one := .lv (.arr1 1)

theorem A_den : Den .two (Lv.acc2 Int 0) store ((Lv.arr2 0).cells store) := acc2_den store_ok 0

theorem A_small : Small (d := .two) ((Lv.arr2 0).cells store) := by
  show _ ∧ _
  constructor <;> decide

end Spp.Sample
