import Verif.Spec.Gradient
import Verif.Model.DataRecords
import Mathlib.Analysis.SpecialFunctions.Pow.Deriv

/-! What the proofs about gradients use of a way to differentiate. -/

namespace Verif.AD
open Verif.Spec

variable {E : Type} [NormedAddCommGroup E] [NormedSpace ℝ E]

/-- `A` is the right result for `f` at `x` when differentiating by `v`. -/
abbrev Ex (f : E → ℝ) (x : E) (v : Mode x) (A : v.N) : Prop := v.Ex f A

/-- Every primitive that the code uses is differentiated correctly where it is smooth. -/
class Laws {x : E} (v : Mode x) : Prop where
  diff {f : E → ℝ} {A : v.N} (h : v.Ex f A) : DifferentiableAt ℝ f x
  congr {f g : E → ℝ} {A : v.N} (h : v.Ex f A) (e : g =ᶠ[nhds x] f) : v.Ex g A
  const (c : ℝ) : v.Ex (fun _ => c) (v.k c)
  sci (m : ℕ) (s : Bool) (e : ℕ) : v.Ex (fun _ => OfScientific.ofScientific m s e)
    (OfScientific.ofScientific m s e)
  pi : v.Ex (fun _ => Real.pi) v.b.pi
  add {f g : E → ℝ} {A B : v.N} (hf : v.Ex f A) (hg : v.Ex g B) : v.Ex (fun y => f y + g y) (A + B)
  sub {f g : E → ℝ} {A B : v.N} (hf : v.Ex f A) (hg : v.Ex g B) : v.Ex (fun y => f y - g y) (A - B)
  mul {f g : E → ℝ} {A B : v.N} (hf : v.Ex f A) (hg : v.Ex g B) : v.Ex (fun y => f y * g y) (A * B)
  neg {f : E → ℝ} {A : v.N} (hf : v.Ex f A) : v.Ex (fun y => -f y) (-A)
  pow {f : E → ℝ} {A : v.N} (hf : v.Ex f A) (n : ℕ) (hn : n ≠ 0) : v.Ex (fun y => f y ^ n) (A ^ n)
  div {f g : E → ℝ} {A B : v.N} (hf : v.Ex f A) (hg : v.Ex g B) (h0 : g x ≠ 0) :
    v.Ex (fun y => f y / g y) (A / B)
  sqrt {f : E → ℝ} {A : v.N} (hf : v.Ex f A) (h0 : 0 < f x) :
    v.Ex (fun y => np.sqrt (f y)) (v.b.sqrt A)
  exp {f : E → ℝ} {A : v.N} (hf : v.Ex f A) : v.Ex (fun y => np.exp (f y)) (v.b.exp A)
  log {f : E → ℝ} {A : v.N} (hf : v.Ex f A) (h0 : 0 < f x) :
    v.Ex (fun y => np.log (f y)) (v.b.log A)
  sin {f : E → ℝ} {A : v.N} (hf : v.Ex f A) : v.Ex (fun y => np.sin (f y)) (v.b.sin A)
  cos {f : E → ℝ} {A : v.N} (hf : v.Ex f A) : v.Ex (fun y => np.cos (f y)) (v.b.cos A)
  arcsin {f : E → ℝ} {A : v.N} (hf : v.Ex f A) (h1 : -1 < f x) (h2 : f x < 1) :
    v.Ex (fun y => np.arcsin (f y)) (v.b.arcsin A)
  power {f g : E → ℝ} {A B : v.N} (hf : v.Ex f A) (hg : v.Ex g B) (h0 : 0 < f x) :
    v.Ex (fun y => np.power (f y) (g y)) (v.b.power A B)
  arctan2 {f g : E → ℝ} {A B : v.N} (hf : v.Ex f A) (hg : v.Ex g B) (h : 0 < g x ∨ f x ≠ 0) :
    v.Ex (fun y => np.arctan2 (f y) (g y)) (v.b.arctan2 A B)
  abs {f : E → ℝ} {A : v.N} (hf : v.Ex f A) (h0 : Clear f x 0) :
    v.Ex (fun y => np.abs (f y)) (v.b.abs A)
  max {f g : E → ℝ} {A B : v.N} (hf : v.Ex f A) (hg : v.Ex g B)
    (h : f x ≠ g x ∨ f =ᶠ[nhds x] g) : v.Ex (fun y => np.maximum (f y) (g y)) (v.b.maximum A B)
  clip {d : E → ℝ} {D : v.N} (hd : v.Ex d D) (h1 : Clear d x (-25)) (h2 : Clear d x 15) :
    v.Ex (fun y => np.clip (d y) (-25.0) 15.0) (v.b.clip D (-25.0) 15.0)
  select {a p q : E → ℝ} {c : ℝ} {A C P Q : v.N} (ha : v.Ex a A) (hc : v.Ex (fun _ => c) C)
    (hp : v.Ex p P) (hq : v.Ex q Q) (hne : Clear a x c) :
    v.Ex (fun y => np.whereGt (a y) c (p y) (q y)) (v.b.whereGt A C P Q)
  posPow4 {f : E → ℝ} {A : v.N} (hf : v.Ex f A) :
    v.Ex (fun y => np.maximum (f y) 0.0 ^ 4) (v.b.maximum A 0.0 ^ 4)
  compass {f g : E → ℝ} {A B : v.N} (hf : v.Ex f A) (hg : v.Ex g B) (h : ¬ (0 ≤ g x ∧ f x = 0)) :
    v.Ex (fun y => np.fmod (np.arctan2 (f y) (g y) * (180.0 / np.pi) + 360.0) 360.0)
      (v.b.fmod (v.b.arctan2 A B * (180.0 / v.b.pi) + 360.0) 360.0)
  interp {s : E → ℝ} {S : v.N} (hs : v.Ex s S) (x0 f0 x1 f1 x2 f2 x3 f3 : ℝ)
    (h01 : x0 < x1) (h12 : x1 < x2) (h23 : x2 < x3)
    (c0 : Clear s x x0) (c1 : Clear s x x1) (c2 : Clear s x x2) (c3 : Clear s x x3)
    (hr : v.holdsEnds ∨ x0 < s x ∧ s x < x3) :
    v.Ex (fun y => np.interp (s y) [x0, x1, x2, x3] [f0, f1, f2, f3])
      (v.b.interp S [v.k x0, v.k x1, v.k x2, v.k x3] [v.k f0, v.k f1, v.k f2, v.k f3])

variable {x : E} {v : Mode x} [Laws v] {f g : E → ℝ} {A B : v.N}

theorem congr {f g : E → ℝ} (h : Ex f x v A) (e : g =ᶠ[nhds x] f) : Ex g x v A := Laws.congr h e
theorem constT (c : ℝ) : Ex (fun _ => c) x v (v.k c) := Laws.const c
theorem sciT (m : ℕ) (s : Bool) (e : ℕ) : Ex (fun _ => (OfScientific.ofScientific m s e : ℝ)) x v
    (OfScientific.ofScientific m s e : v.N) := Laws.sci m s e
theorem piT : Ex (fun _ => np.pi) x v v.b.pi := Laws.pi
theorem addT (hf : Ex f x v A) (hg : Ex g x v B) : Ex (fun y => f y + g y) x v (A + B) :=
  Laws.add hf hg
theorem subT (hf : Ex f x v A) (hg : Ex g x v B) : Ex (fun y => f y - g y) x v (A - B) :=
  Laws.sub hf hg
theorem mulT (hf : Ex f x v A) (hg : Ex g x v B) : Ex (fun y => f y * g y) x v (A * B) :=
  Laws.mul hf hg
theorem negT (hf : Ex f x v A) : Ex (fun y => -f y) x v (-A) := Laws.neg hf
theorem powT (hf : Ex f x v A) (n : ℕ) (hn : n ≠ 0) : Ex (fun y => f y ^ n) x v (A ^ n) :=
  Laws.pow hf n hn
theorem divT (hf : Ex f x v A) (hg : Ex g x v B) (h0 : g x ≠ 0) :
    Ex (fun y => f y / g y) x v (A / B) := Laws.div hf hg h0
theorem sqrtT (hf : Ex f x v A) (h0 : 0 < f x) : Ex (fun y => np.sqrt (f y)) x v (v.b.sqrt A) :=
  Laws.sqrt hf h0
theorem expT (hf : Ex f x v A) : Ex (fun y => np.exp (f y)) x v (v.b.exp A) := Laws.exp hf
theorem logT (hf : Ex f x v A) (h0 : 0 < f x) : Ex (fun y => np.log (f y)) x v (v.b.log A) :=
  Laws.log hf h0
theorem sinT (hf : Ex f x v A) : Ex (fun y => np.sin (f y)) x v (v.b.sin A) := Laws.sin hf
theorem cosT (hf : Ex f x v A) : Ex (fun y => np.cos (f y)) x v (v.b.cos A) := Laws.cos hf
theorem arcsinT (hf : Ex f x v A) (h1 : -1 < f x) (h2 : f x < 1) :
    Ex (fun y => np.arcsin (f y)) x v (v.b.arcsin A) := Laws.arcsin hf h1 h2
theorem powerT (hf : Ex f x v A) (hg : Ex g x v B) (h0 : 0 < f x) :
    Ex (fun y => np.power (f y) (g y)) x v (v.b.power A B) := Laws.power hf hg h0
theorem arctan2T (hf : Ex f x v A) (hg : Ex g x v B) (h : 0 < g x ∨ f x ≠ 0) :
    Ex (fun y => np.arctan2 (f y) (g y)) x v (v.b.arctan2 A B) := Laws.arctan2 hf hg h
theorem absT (hf : Ex f x v A) (h0 : Clear f x 0) : Ex (fun y => np.abs (f y)) x v (v.b.abs A) :=
  Laws.abs hf h0
theorem maxT (hf : Ex f x v A) (hg : Ex g x v B) (h : f x ≠ g x ∨ f =ᶠ[nhds x] g) :
    Ex (fun y => np.maximum (f y) (g y)) x v (v.b.maximum A B) := Laws.max hf hg h
theorem clipT {d : E → ℝ} {D : v.N} (hd : Ex d x v D) (h1 : Clear d x (-25)) (h2 : Clear d x 15) :
    Ex (fun y => np.clip (d y) (-25.0) 15.0) x v (v.b.clip D (-25.0) 15.0) := Laws.clip hd h1 h2
theorem whereT {a p q : E → ℝ} {c : ℝ} {A C P Q : v.N} (ha : Ex a x v A)
    (hc : Ex (fun _ => c) x v C) (hp : Ex p x v P) (hq : Ex q x v Q) (hne : Clear a x c) :
    Ex (fun y => np.whereGt (a y) c (p y) (q y)) x v (v.b.whereGt A C P Q) :=
  Laws.select ha hc hp hq hne
theorem posPow4T (hf : Ex f x v A) :
    Ex (fun y => np.maximum (f y) 0.0 ^ 4) x v (v.b.maximum A 0.0 ^ 4) := Laws.posPow4 hf

theorem lt_near (hf : Ex f x v A) (hg : Ex g x v B) (h : f x < g x) :
    ∀ᶠ y in nhds x, f y < g y :=
  (Laws.diff hf).continuousAt.eventually_lt (Laws.diff hg).continuousAt h

end Verif.AD
