import Verif.Prelude.Graph

/-!
# What it means that a function can be called with symbols
-/
namespace Verif.Spec

/-- The Python operators of a kind of number. -/
class Ops (α : Type) extends Add α, Sub α, Mul α, Div α, Neg α, Pow α ℕ, OfScientific α

instance (α : Type) [Add α] [Sub α] [Mul α] [Div α] [Neg α] [Pow α ℕ] [OfScientific α] : Ops α := {}

/-- A function of `n` arguments written against a backend, for every kind of number `α`; `ℝ → α`
represents the numbers of the data files. -/
abbrev Code (n : ℕ) := (α : Type) → [Ops α] → Backend α → (ℝ → α) → (Fin n → α) → α

/-- Called with graphs, the function returns a graph; evaluating it later, with any backend and any
values of the symbols, gives what the function returns when it is called with the values of the
arguments. -/
def Faithful {n : ℕ} (F : Code n) : Prop :=
  ∀ (α : Type) [Ops α] (b : Backend α) (k : ℝ → α) (V : Type) (env : V → α) (args : Fin n → Expr V),
    (F (Expr V) (graph V) Expr.num args).run b k env = F α b k fun i => (args i).run b k env

/-- The graph for symbols can be built with CasADi and has no other symbols. -/
def Buildable {n : ℕ} (F : Code n) : Prop :=
  ∀ (V : Type) (args : Fin n → V), (F (Expr V) (graph V) Expr.num fun i => .var (args i)).Buildable ∧
    (F (Expr V) (graph V) Expr.num fun i => .var (args i)).symbols ⊆ Set.range args

/-- A function that can be called with symbols. -/
def Traceable {n : ℕ} (F : Code n) : Prop := Faithful F ∧ Buildable F

end Verif.Spec
