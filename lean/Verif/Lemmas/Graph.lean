import Verif.Spec.Graph

/-! Graphs built from symbols contain only these symbols; tables without symbols can be recognised. -/

namespace Verif.Graph
open Verif.Spec Expr

variable {V W : Type}

/-- Computable test for "no symbols". -/
def closed : Expr V → Bool
  | var _ => false
  | lit _ _ _ => true
  | num _ => true
  | pi => true
  | op1 _ x => closed x
  | op2 _ x y => closed x && closed y
  | ipow x _ => closed x
  | whereGt a c x y => closed a && closed c && (closed x && closed y)
  | clip x lo hi => closed x && (closed lo && closed hi)
  | interp x _ _ xp fp => closed x && ((List.ofFn fun i => closed (xp i)).all id &&
      (List.ofFn fun i => closed (fp i)).all id)

/-- Computable test for `Buildable`. -/
def check : Expr V → Bool
  | var _ => true
  | lit _ _ _ => true
  | num _ => true
  | pi => true
  | op1 _ x => check x
  | op2 _ x y => check x && check y
  | ipow x _ => check x
  | whereGt a c x y => check a && check c && (check x && check y)
  | clip x lo hi => check x && (check lo && check hi)
  | interp x _ _ xp fp => check x && ((List.ofFn fun i => closed (xp i)).all id &&
      (List.ofFn fun i => closed (fp i)).all id)

theorem symbols_run (s : V → W) (e : Expr V) :
    (e.run (graph W) num fun v => var (s v)).symbols ⊆ Set.range s := by
  induction e with
  | var v => exact Set.singleton_subset_iff.2 ⟨v, rfl⟩
  | lit m s e => exact Set.empty_subset _
  | num c => exact Set.empty_subset _
  | pi => exact Set.empty_subset _
  | op1 o x ih => cases o <;> exact ih
  | op2 o x y ix iy => cases o <;> exact Set.union_subset ix iy
  | ipow x n ih => exact ih
  | whereGt a c x y ia ic ix iy =>
    exact Set.union_subset (Set.union_subset ia ic) (Set.union_subset ix iy)
  | clip x lo hi ix il ih => exact Set.union_subset ix (Set.union_subset il ih)
  | interp x n m xp fp ix ip iq =>
    refine Set.union_subset ix (Set.union_subset ?_ ?_) <;>
      · refine Set.iUnion_subset fun i => ?_
        rw [List.get_ofFn]
        first | exact ip _ | exact iq _

theorem closed_run (s : V → W) (e : Expr V) (h : closed e = true) :
    (e.run (graph W) num fun v => var (s v)).symbols = ∅ := by
  induction e with
  | var v => cases h
  | lit m s e => rfl
  | num c => rfl
  | pi => rfl
  | op1 o x ih => cases o <;> exact ih h
  | op2 o x y ix iy =>
    obtain ⟨h1, h2⟩ := Bool.and_eq_true_iff.1 h
    cases o <;> exact Set.union_empty_iff.2 ⟨ix h1, iy h2⟩
  | ipow x n ih => exact ih h
  | whereGt a c x y ia ic ix iy =>
    simp only [closed, Bool.and_eq_true] at h
    exact Set.union_empty_iff.2 ⟨Set.union_empty_iff.2 ⟨ia h.1.1, ic h.1.2⟩,
      Set.union_empty_iff.2 ⟨ix h.2.1, iy h.2.2⟩⟩
  | clip x lo hi ix il ih =>
    simp only [closed, Bool.and_eq_true] at h
    exact Set.union_empty_iff.2 ⟨ix h.1, Set.union_empty_iff.2 ⟨il h.2.1, ih h.2.2⟩⟩
  | interp x n m xp fp ix ip iq =>
    simp only [closed, Bool.and_eq_true, List.all_eq_true, List.mem_ofFn, id, forall_exists_index,
      forall_apply_eq_imp_iff] at h
    refine Set.union_empty_iff.2 ⟨ix h.1, Set.union_empty_iff.2 ⟨?_, ?_⟩⟩ <;>
      · refine Set.iUnion_eq_empty.2 fun i => ?_
        rw [List.get_ofFn]
        first | exact ip _ (h.2.1 _) | exact iq _ (h.2.2 _)

theorem check_run (s : V → W) (e : Expr V) (h : check e = true) :
    (e.run (graph W) num fun v => var (s v)).Buildable := by
  induction e with
  | var v => trivial
  | lit m s e => trivial
  | num c => trivial
  | pi => trivial
  | op1 o x ih => cases o <;> exact ih h
  | op2 o x y ix iy =>
    obtain ⟨h1, h2⟩ := Bool.and_eq_true_iff.1 h
    cases o <;> exact ⟨ix h1, iy h2⟩
  | ipow x n ih => exact ih h
  | whereGt a c x y ia ic ix iy =>
    simp only [check, Bool.and_eq_true] at h
    exact ⟨ia h.1.1, ic h.1.2, ix h.2.1, iy h.2.2⟩
  | clip x lo hi ix il ih =>
    simp only [check, Bool.and_eq_true] at h
    exact ⟨ix h.1, il h.2.1, ih h.2.2⟩
  | interp x n m xp fp ix ip iq =>
    simp only [check, Bool.and_eq_true, List.all_eq_true, List.mem_ofFn, id, forall_exists_index,
      forall_apply_eq_imp_iff] at h
    refine ⟨ix h.1, fun i => ?_, fun i => ?_⟩
    · rw [List.get_ofFn]; exact closed_run s _ (h.2.1 _)
    · rw [List.get_ofFn]; exact closed_run s _ (h.2.2 _)

/-- A faithful function whose graph passes the test can be called with symbols. -/
theorem traceable {n : ℕ} {F : Code n} (hF : Faithful F)
    (hc : check (F (Expr (Fin n)) (graph (Fin n)) num var) = true) : Traceable F := by
  refine ⟨hF, fun V args => ?_⟩
  have h := hF (Expr V) (graph V) num (Fin n) (fun i => var (args i)) var
  have e : (F (Expr V) (graph V) num fun i => ((var i : Expr (Fin n)).run (graph V) num
      fun i => var (args i))) = F (Expr V) (graph V) num fun i => var (args i) := rfl
  rw [← e, ← h]
  exact ⟨check_run args _ hc, symbols_run args _⟩

end Verif.Graph
