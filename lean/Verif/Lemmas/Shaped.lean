import Verif.Model.Decorated
import Verif.Model.DataRecords
import Mathlib.Order.Lattice
import Mathlib.Algebra.BigOperators.Group.List.Basic

/-!
# Arrays that stand for functions of the index

`Rep u r ℓ v x`: the value `v` has one of the shapes `[]`, `[1]`, `u`, `u` with `r` leading axes
of length 1 (given by the level `ℓ`), and its element at index `i` is `x i`. The code preserves
this relation.
-/

namespace Verif.Shaped
open Verif.Nd Verif.Decorated

/-- The shapes that occur. -/
def sh (u : List ℕ) (r : ℕ) : ℕ → List ℕ
  | 0 => []
  | 1 => [1]
  | 2 => u
  | _ => u ++ List.replicate r 1

/-- `s` is broadcast to `t` without changing `t`. -/
def Below : List ℕ → List ℕ → Prop
  | [], _ => True
  | _ :: _, [] => False
  | d :: s, e :: t => (d = 1 ∨ d = e) ∧ Below s t

theorem Below.refl : ∀ s, Below s s
  | [] => trivial
  | _ :: s => ⟨.inr rfl, Below.refl s⟩

theorem Below.append : ∀ s t, Below s (s ++ t)
  | [], _ => trivial
  | _ :: s, t => ⟨.inr rfl, Below.append s t⟩

theorem Below.unit {t : List ℕ} (ht : t ≠ []) : Below [1] t := by
  cases t with
  | nil => exact absurd rfl ht
  | cons e t => exact ⟨.inl rfl, trivial⟩

theorem broadcast_left : ∀ {s t : List ℕ}, Below s t → broadcast s t = some t
  | [], t, _ => by cases t <;> rfl
  | d :: s, e :: t, h => by
    obtain ⟨h1, h2⟩ := h
    simp only [broadcast, broadcast_left h2]
    rcases h1 with rfl | rfl
    · by_cases h : 1 = e <;> simp [axis, h]
    · simp [axis]

theorem axis_comm (a c : ℕ) : axis a c = axis c a := by
  unfold axis
  split_ifs <;> simp_all

theorem broadcast_comm : ∀ s t : List ℕ, broadcast s t = broadcast t s
  | [], [] => rfl
  | [], _ :: _ => rfl
  | _ :: _, [] => rfl
  | a :: s, c :: t => by simp only [broadcast, axis_comm a c, broadcast_comm s t]

theorem pick_pick : ∀ {s t : List ℕ} (i : List ℕ), Below s t → pick s (pick t i) = pick s i
  | [], _, _, _ => rfl
  | d :: s, e :: t, i, h => by
    obtain ⟨h1, h2⟩ := h
    have := pick_pick i.tail h2
    simp only [pick, List.tail_cons, this, List.headD_cons]
    rcases h1 with rfl | rfl
    · simp
    · by_cases h : d = 1 <;> simp [h]

variable {u : List ℕ} {r : ℕ}

theorem sh_below (hu : u ≠ []) {a c : ℕ} (h : a ≤ c) : Below (sh u r a) (sh u r c) := by
  have hu' : u ++ List.replicate r 1 ≠ [] := by simp [hu]
  match a, c, h with
  | 0, _, _ => trivial
  | 1, 1, _ => exact Below.refl _
  | 1, 2, _ => exact Below.unit hu
  | 1, _ + 3, _ => exact Below.unit hu'
  | 2, 2, _ => exact Below.refl _
  | 2, _ + 3, _ => exact Below.append _ _
  | _ + 3, _ + 3, _ => exact Below.refl _

theorem sh_broadcast (hu : u ≠ []) (a c : ℕ) :
    broadcast (sh u r a) (sh u r c) = some (sh u r (a ⊔ c)) := by
  rcases le_total a c with h | h
  · rw [broadcast_left (sh_below hu h), sup_eq_right.2 h]
  · rw [broadcast_comm, broadcast_left (sh_below hu h), sup_eq_left.2 h]

/-- `v` is a value with shape given by `ℓ.2`, of JAX if `ℓ.1`, with elements `x`. -/
def Rep (u : List ℕ) (r : ℕ) (ℓ : Bool × ℕ) (v : Nd) (x : List ℕ → ℝ) : Prop :=
  ∃ g, v = some ⟨ℓ.1, sh u r ℓ.2, g⟩ ∧ ∀ i, g (pick (sh u r ℓ.2) i) = x i

namespace Rep

variable {a c d : Bool × ℕ} {v w z : Nd} {x y q : List ℕ → ℝ} {j : Bool}

theorem cast {ℓ : Bool × ℕ} (h : Rep u r a v x) (e : a = ℓ) : Rep u r ℓ v x := e ▸ h

theorem scalar (k : ℝ) : Rep u r ⊥ (Nd.scalar k) (fun _ => k) := ⟨_, rfl, fun _ => rfl⟩

theorem lit (m : ℕ) (s : Bool) (e : ℕ) : Rep u r ⊥ (OfScientific.ofScientific m s e)
    (fun _ => OfScientific.ofScientific m s e) := ⟨_, rfl, fun _ => rfl⟩

theorem map (f : ℝ → ℝ) (h : Rep u r a v x) :
    Rep u r ((j, 0) ⊔ a) (Nd.map j f v) (fun i => f (x i)) := by
  obtain ⟨g, rfl, hg⟩ := h
  refine ⟨fun i => f (g (pick (sh u r a.2) i)), ?_, fun i => ?_⟩
  · simp [Nd.map]
  · simp only [Prod.snd_sup, Nat.zero_le, sup_of_le_right]
    rw [pick_pick i (Below.refl _), hg]

theorem map₂ (hu : u ≠ []) (f : ℝ → ℝ → ℝ) (h : Rep u r a v x) (k : Rep u r c w y) :
    Rep u r ((j, 0) ⊔ a ⊔ c) (Nd.map₂ j f v w) (fun i => f (x i) (y i)) := by
  obtain ⟨g, rfl, hg⟩ := h
  obtain ⟨g', rfl, hg'⟩ := k
  refine ⟨fun i => f (g (pick (sh u r a.2) i)) (g' (pick (sh u r c.2) i)), ?_, fun i => ?_⟩
  · simp [Nd.map₂, sh_broadcast hu]
  · simp only [Prod.snd_sup, Nat.zero_le, sup_of_le_right]
    rw [pick_pick i (sh_below hu le_sup_left), pick_pick i (sh_below hu le_sup_right), hg, hg']

theorem map₃ (hu : u ≠ []) (f : ℝ → ℝ → ℝ → ℝ) (h : Rep u r a v x) (k : Rep u r c w y)
    (l : Rep u r d z q) :
    Rep u r ((j, 0) ⊔ a ⊔ c ⊔ d) (Nd.map₃ j f v w z) (fun i => f (x i) (y i) (q i)) := by
  obtain ⟨g, rfl, hg⟩ := h
  obtain ⟨g', rfl, hg'⟩ := k
  obtain ⟨g'', rfl, hg''⟩ := l
  refine ⟨fun i => f (g (pick (sh u r a.2) i)) (g' (pick (sh u r c.2) i))
    (g'' (pick (sh u r d.2) i)), ?_, fun i => ?_⟩
  · simp [Nd.map₃, sh_broadcast hu]
  · simp only [Prod.snd_sup, Nat.zero_le, sup_of_le_right]
    rw [pick_pick i (sh_below hu (le_sup_of_le_left le_sup_left)),
      pick_pick i (sh_below hu (le_sup_of_le_left le_sup_right)),
      pick_pick i (sh_below hu le_sup_right), hg, hg', hg'']

theorem add (hu : u ≠ []) (h : Rep u r a v x) (k : Rep u r c w y) :
    Rep u r (a ⊔ c) (v + w) (fun i => x i + y i) :=
  (map₂ (j := false) hu (· + ·) h k).cast (by rw [show ((false, 0) : Bool × ℕ) = ⊥ from rfl,
    bot_sup_eq])
theorem sub (hu : u ≠ []) (h : Rep u r a v x) (k : Rep u r c w y) :
    Rep u r (a ⊔ c) (v - w) (fun i => x i - y i) :=
  (map₂ (j := false) hu (· - ·) h k).cast (by rw [show ((false, 0) : Bool × ℕ) = ⊥ from rfl,
    bot_sup_eq])
theorem mul (hu : u ≠ []) (h : Rep u r a v x) (k : Rep u r c w y) :
    Rep u r (a ⊔ c) (v * w) (fun i => x i * y i) :=
  (map₂ (j := false) hu (· * ·) h k).cast (by rw [show ((false, 0) : Bool × ℕ) = ⊥ from rfl,
    bot_sup_eq])
theorem div (hu : u ≠ []) (h : Rep u r a v x) (k : Rep u r c w y) :
    Rep u r (a ⊔ c) (v / w) (fun i => x i / y i) :=
  (map₂ (j := false) hu (· / ·) h k).cast (by rw [show ((false, 0) : Bool × ℕ) = ⊥ from rfl,
    bot_sup_eq])
theorem neg (h : Rep u r a v x) : Rep u r a (-v) (fun i => -x i) :=
  (map (j := false) (- ·) h).cast (by rw [show ((false, 0) : Bool × ℕ) = ⊥ from rfl, bot_sup_eq])
theorem pow (n : ℕ) (h : Rep u r a v x) : Rep u r a (v ^ n) (fun i => x i ^ n) :=
  (map (j := false) (· ^ n) h).cast (by rw [show ((false, 0) : Bool × ℕ) = ⊥ from rfl, bot_sup_eq])

theorem sqrt (h : Rep u r a v x) :
    Rep u r ((j, 0) ⊔ a) ((ndBackend j).sqrt v) (fun i => np.sqrt (x i)) := map _ h
theorem exp (h : Rep u r a v x) :
    Rep u r ((j, 0) ⊔ a) ((ndBackend j).exp v) (fun i => np.exp (x i)) := map _ h
theorem log (h : Rep u r a v x) :
    Rep u r ((j, 0) ⊔ a) ((ndBackend j).log v) (fun i => np.log (x i)) := map _ h
theorem sin (h : Rep u r a v x) :
    Rep u r ((j, 0) ⊔ a) ((ndBackend j).sin v) (fun i => np.sin (x i)) := map _ h
theorem cos (h : Rep u r a v x) :
    Rep u r ((j, 0) ⊔ a) ((ndBackend j).cos v) (fun i => np.cos (x i)) := map _ h
theorem abs (h : Rep u r a v x) :
    Rep u r ((j, 0) ⊔ a) ((ndBackend j).abs v) (fun i => np.abs (x i)) := map _ h
theorem power (hu : u ≠ []) (h : Rep u r a v x) (k : Rep u r c w y) :
    Rep u r ((j, 0) ⊔ a ⊔ c) ((ndBackend j).power v w) (fun i => np.power (x i) (y i)) :=
  map₂ hu _ h k
theorem arctan2 (hu : u ≠ []) (h : Rep u r a v x) (k : Rep u r c w y) :
    Rep u r ((j, 0) ⊔ a ⊔ c) ((ndBackend j).arctan2 v w) (fun i => np.arctan2 (x i) (y i)) :=
  map₂ hu _ h k
theorem maximum (hu : u ≠ []) (h : Rep u r a v x) (k : Rep u r c w y) :
    Rep u r ((j, 0) ⊔ a ⊔ c) ((ndBackend j).maximum v w) (fun i => np.maximum (x i) (y i)) :=
  map₂ hu _ h k
theorem clip (hu : u ≠ []) (h : Rep u r a v x) (k : Rep u r c w y) (l : Rep u r d z q) :
    Rep u r ((j, 0) ⊔ a ⊔ c ⊔ d) ((ndBackend j).clip v w z)
      (fun i => np.clip (x i) (y i) (q i)) := map₃ hu _ h k l

theorem whereGt (hu : u ≠ []) {e : Bool × ℕ} {s : Nd} {p : List ℕ → ℝ}
    (h : Rep u r a v x) (k : Rep u r c w y) (l : Rep u r d z q) (m : Rep u r e s p) :
    Rep u r ((j, 0) ⊔ a ⊔ c ⊔ d ⊔ e) ((ndBackend j).whereGt v w z s)
      (fun i => np.whereGt (x i) (y i) (q i) (p i)) := by
  have h1 := map₃ (j := j) hu (fun m p q => np.whereGt m 0 p q)
    (map₂ (j := false) hu (fun p q => np.whereGt p q 1 0) h k) l m
  have h2 : (fun i => np.whereGt (np.whereGt (x i) (y i) 1 0) 0 (q i) (p i)) =
      fun i => np.whereGt (x i) (y i) (q i) (p i) := by
    funext i
    simp only [np]
    by_cases hc : x i > y i <;> simp [hc]
  rw [h2] at h1
  refine h1.cast ?_
  rw [show ((false, 0) : Bool × ℕ) = ⊥ from rfl, bot_sup_eq]
  simp only [sup_assoc]

theorem interp (tx tf : List ℝ) (h : Rep u r a v x) :
    Rep u r ((j, 0) ⊔ a) ((ndBackend j).interp v (tx.map Nd.scalar) (tf.map Nd.scalar))
      (fun i => np.interp (x i) tx tf) := by
  have hn : ∀ l : List ℝ, numbers (l.map Nd.scalar) = some l := by
    intro l
    induction l with
    | nil => rfl
    | cons y l ih => simp [numbers, Nd.scalar] at ih ⊢; exact ih
  have : (ndBackend j).interp v (tx.map Nd.scalar) (tf.map Nd.scalar) =
      Nd.map j (fun x => np.interp x tx tf) v := by
    simp only [ndBackend, hn]
  rw [this]
  exact map _ h

end Rep

/-- Apply the rules of `Rep` to an expression. -/
macro "rep" : tactic => `(tactic| repeat (first
  | assumption
  | exact Rep.lit _ _ _
  | exact Rep.scalar _
  | apply Rep.add | apply Rep.sub | apply Rep.mul | apply Rep.div | apply Rep.neg | apply Rep.pow
  | apply Rep.sqrt | apply Rep.exp | apply Rep.log | apply Rep.sin | apply Rep.cos | apply Rep.abs
  | apply Rep.power | apply Rep.arctan2 | apply Rep.maximum | apply Rep.clip | apply Rep.whereGt))

/-- Equality of two joins of levels. -/
macro "lvl" : tactic => `(tactic|
  simp only [bot_sup_eq, sup_bot_eq, sup_assoc, sup_left_comm, sup_comm, sup_idem, sup_left_idem])

open Aero

variable {a c d e k : Bool × ℕ} {v w z s m : Nd} {x y q p o : List ℕ → ℝ} {j : Bool}

theorem rep_atmos (hu : u ≠ []) (h : Rep u r a v x) (k : Rep u r c w y) :
    Rep u r ((j, 0) ⊔ a ⊔ c) (atmos (ndBackend j) v w).1 (fun i => (atmos np (x i) (y i)).1) ∧
    Rep u r ((j, 0) ⊔ a ⊔ c) (atmos (ndBackend j) v w).2.1
      (fun i => (atmos np (x i) (y i)).2.1) ∧
    Rep u r ((j, 0) ⊔ a ⊔ c) (atmos (ndBackend j) v w).2.2
      (fun i => (atmos np (x i) (y i)).2.2) := by
  refine ⟨?_, ?_, ?_⟩
  all_goals
    apply Rep.cast
    · unfold atmos
      dsimp only [rho0, R, T0, beta]
      rep
    · lvl

end Verif.Shaped
