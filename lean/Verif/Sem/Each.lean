/- Lists related element by element. -/
namespace TPB

/-- Two lists of the same length whose elements are related. -/
inductive Each {α β : Type} (R : α → β → Prop) : List α → List β → Prop
  | nil : Each R [] []
  | cons {a b as bs} : R a b → Each R as bs → Each R (a :: as) (b :: bs)

theorem each_append {α β : Type} {R : α → β → Prop} {a c : List α} {b d : List β} (h1 : Each R a b)
    (h2 : Each R c d) : Each R (a ++ c) (b ++ d) := by
  induction h1 with
  | nil => exact h2
  | cons h _ ih => exact .cons h ih

theorem each_map {α β γ : Type} {R : β → γ → Prop} (f : α → β) (g : α → γ) (h : ∀ a, R (f a) (g a)) (as : List α) :
    Each R (as.map f) (as.map g) := by
  induction as with
  | nil => exact .nil
  | cons a as ih => exact .cons (h a) ih

end TPB
