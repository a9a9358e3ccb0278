import Verif.Prelude.Backend

/-!
# Expression graphs

Given symbols instead of numbers, the code does not compute: CasADi's functions
(`/repo/openap/backends/casadi_backend.py:43-126`) return nodes of an expression graph, and under
`jax.jit` the functions of `/repo/openap/backends/jax_backend.py:40-130` record the same operations.
The decorator lets symbols through (`/repo/openap/extra/__init__.py:45-49`, C23). `Expr` is such a
graph, written as a tree (sharing of nodes does not change values), `graph` the backend that builds
it, and `Expr.run` evaluates a graph with the operations of any other backend. The simplifications
that CasADi and XLA make on the graph are not modelled.
-/

namespace Verif

/-- Unary nodes. -/
inductive Op1 where
  | neg | sqrt | exp | log | sin | cos | tan | arcsin | arccos | arctan | abs

/-- Binary nodes. -/
inductive Op2 where
  | add | sub | mul | div | power | arctan2 | maximum | minimum | fmod

/-- An expression graph over the symbols `V`. -/
inductive Expr (V : Type) where
  /-- A symbol (`casadi.SX.sym`, a JAX tracer). -/
  | var (v : V)
  /-- A Python literal. -/
  | lit (m : ℕ) (s : Bool) (e : ℕ)
  /-- A number from a data file. -/
  | num (c : ℝ)
  | pi
  | op1 (o : Op1) (x : Expr V)
  | op2 (o : Op2) (x y : Expr V)
  /-- `x ** n` with an integer literal. -/
  | ipow (x : Expr V) (n : ℕ)
  /-- `where(a > c, x, y)`. -/
  | whereGt (a c x y : Expr V)
  | clip (x lo hi : Expr V)
  /-- `interp(x, xp, fp)` with tables of `n` and `m` entries. -/
  | interp (x : Expr V) (n m : ℕ) (xp : Fin n → Expr V) (fp : Fin m → Expr V)

namespace Expr
variable {V : Type}

instance : Add (Expr V) := ⟨op2 .add⟩
instance : Sub (Expr V) := ⟨op2 .sub⟩
instance : Mul (Expr V) := ⟨op2 .mul⟩
instance : Div (Expr V) := ⟨op2 .div⟩
instance : Neg (Expr V) := ⟨op1 .neg⟩
instance : Pow (Expr V) ℕ := ⟨ipow⟩
instance : OfScientific (Expr V) := ⟨lit⟩

end Expr

/-- The backend on symbols. -/
def graph (V : Type) : Backend (Expr V) where
  sqrt := .op1 .sqrt
  exp := .op1 .exp
  log := .op1 .log
  power := .op2 .power
  sin := .op1 .sin
  cos := .op1 .cos
  tan := .op1 .tan
  arcsin := .op1 .arcsin
  arccos := .op1 .arccos
  arctan := .op1 .arctan
  arctan2 := .op2 .arctan2
  abs := .op1 .abs
  whereGt := .whereGt
  maximum := .op2 .maximum
  minimum := .op2 .minimum
  clip := .clip
  interp := fun x xp fp => .interp x xp.length fp.length xp.get fp.get
  fmod := .op2 .fmod
  pi := .pi

namespace Expr
variable {V α : Type} [Add α] [Sub α] [Mul α] [Div α] [Neg α] [Pow α ℕ] [OfScientific α]

/-- A unary node with the operations of a backend. -/
def un (b : Backend α) : Op1 → α → α
  | .neg => fun x => -x
  | .sqrt => b.sqrt
  | .exp => b.exp
  | .log => b.log
  | .sin => b.sin
  | .cos => b.cos
  | .tan => b.tan
  | .arcsin => b.arcsin
  | .arccos => b.arccos
  | .arctan => b.arctan
  | .abs => b.abs

/-- A binary node with the operations of a backend. -/
def bin (b : Backend α) : Op2 → α → α → α
  | .add => fun x y => x + y
  | .sub => fun x y => x - y
  | .mul => fun x y => x * y
  | .div => fun x y => x / y
  | .power => b.power
  | .arctan2 => b.arctan2
  | .maximum => b.maximum
  | .minimum => b.minimum
  | .fmod => b.fmod

/-- Evaluate a graph: `b` computes, `k` represents the numbers of the data files, `env` is substituted
for the symbols. -/
def run (b : Backend α) (k : ℝ → α) (env : V → α) : Expr V → α
  | var v => env v
  | lit m s e => OfScientific.ofScientific m s e
  | num c => k c
  | pi => b.pi
  | op1 o x => un b o (run b k env x)
  | op2 o x y => bin b o (run b k env x) (run b k env y)
  | ipow x n => run b k env x ^ n
  | whereGt a c x y => b.whereGt (run b k env a) (run b k env c) (run b k env x) (run b k env y)
  | clip x lo hi => b.clip (run b k env x) (run b k env lo) (run b k env hi)
  | interp x _ _ xp fp =>
    b.interp (run b k env x) (List.ofFn fun i => run b k env (xp i))
      (List.ofFn fun i => run b k env (fp i))

/-- The symbols that occur in a graph. -/
def symbols : Expr V → Set V
  | var v => {v}
  | lit _ _ _ => ∅
  | num _ => ∅
  | pi => ∅
  | op1 _ x => symbols x
  | op2 _ x y => symbols x ∪ symbols y
  | ipow x _ => symbols x
  | whereGt a c x y => symbols a ∪ symbols c ∪ (symbols x ∪ symbols y)
  | clip x lo hi => symbols x ∪ (symbols lo ∪ symbols hi)
  | interp x _ _ xp fp => symbols x ∪ ((⋃ i, symbols (xp i)) ∪ ⋃ i, symbols (fp i))

/-- `casadi.interpolant` takes tables of numbers only (`casadi_backend.py:97-103`: "must be Python
lists or tuples, not symbolic"); a symbol in a table raises. A graph that can be built has none. -/
def Buildable : Expr V → Prop
  | var _ => True
  | lit _ _ _ => True
  | num _ => True
  | pi => True
  | op1 _ x => Buildable x
  | op2 _ x y => Buildable x ∧ Buildable y
  | ipow x _ => Buildable x
  | whereGt a c x y => Buildable a ∧ Buildable c ∧ Buildable x ∧ Buildable y
  | clip x lo hi => Buildable x ∧ Buildable lo ∧ Buildable hi
  | interp x _ _ xp fp =>
    Buildable x ∧ (∀ i, symbols (xp i) = ∅) ∧ ∀ i, symbols (fp i) = ∅

end Expr
end Verif
