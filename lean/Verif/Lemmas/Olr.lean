import Verif.Model.Olr
import Verif.Lemmas.NR
import Mathlib.Tactic.Linarith
import Mathlib.Tactic.FieldSimp
import Mathlib.Tactic.Ring

/-! One-dimensional interpolation of `Model/Olr.lean`. -/

namespace Verif.Olr
open NR

/-- Strictly increasing abscissae. -/
def Inc (l : List (ℝ × NR)) : Prop := l.Pairwise fun p q => p.1 < q.1

theorem linear_head (a : ℝ) (f : NR) (l : List (ℝ × NR)) : linear a ((a, f) :: l) = f := by
  cases l with
  | nil => simp [linear]
  | cons p l => obtain ⟨c, g⟩ := p; simp [linear]

theorem linear_node {l : List (ℝ × NR)} (hs : Inc l) {a : ℝ} {f : NR} (h : (a, f) ∈ l) :
    linear a l = f := by
  induction l with
  | nil => cases h
  | cons p l ih =>
    rcases List.mem_cons.1 h with rfl | h'
    · exact linear_head _ _ _
    · obtain ⟨a0, f0⟩ := p
      obtain ⟨h1, h2⟩ := List.pairwise_cons.1 hs
      have hlt : a0 < a := h1 _ h'
      cases l with
      | nil => cases h'
      | cons q l =>
        obtain ⟨c, g⟩ := q
        have hc : c ≤ a := by
          rcases List.mem_cons.1 h' with e | h''
          · cases e; exact le_rfl
          · exact ((List.pairwise_cons.1 h2).1 _ h'').le
        rw [linear, if_neg (not_lt.2 hlt.le), if_neg hlt.ne', if_neg (not_lt.2 hc)]
        exact ih h2 h'

theorem linear_below {l : List (ℝ × NR)} {x : ℝ} (h : ∀ p ∈ l, x < p.1) : linear x l = nan := by
  match l with
  | [] => rfl
  | [(a, f)] => rw [linear, if_neg (h _ (List.mem_cons_self ..)).ne]
  | (a, f) :: (c, g) :: l => rw [linear, if_pos (h _ (List.mem_cons_self ..))]

theorem linear_above {l : List (ℝ × NR)} {x : ℝ} (h : ∀ p ∈ l, p.1 < x) : linear x l = nan := by
  induction l with
  | nil => rfl
  | cons p l ih =>
    obtain ⟨a, f⟩ := p
    have ha : a < x := h _ (List.mem_cons_self ..)
    cases l with
    | nil => rw [linear, if_neg ha.ne']
    | cons q l =>
      obtain ⟨c, g⟩ := q
      have hc : c < x := h (c, g) (by simp)
      rw [linear, if_neg (not_lt.2 ha.le), if_neg ha.ne', if_neg (not_lt.2 hc.le)]
      exact ih fun p hp => h p (List.mem_cons_of_mem _ hp)

theorem linear_nan {l : List (ℝ × NR)} (x : ℝ) (h : ∀ p ∈ l, p.2 = nan) : linear x l = nan := by
  induction l with
  | nil => rfl
  | cons p l ih =>
    obtain ⟨a, f⟩ := p
    have ha : f = nan := h _ (List.mem_cons_self ..)
    cases l with
    | nil => rw [linear, ha, ite_self]
    | cons q l =>
      obtain ⟨c, g⟩ := q
      rw [linear, ih fun p hp => h p (List.mem_cons_of_mem _ hp), ha]
      simp

theorem linear_between {l : List (ℝ × NR)} (hs : Inc l) {a c x f g : ℝ}
    (ha : (a, val f) ∈ l) (hc : (c, val g) ∈ l) (hac : a < c)
    (hno : ∀ p ∈ l, ¬ (a < p.1 ∧ p.1 < c)) (h1 : a ≤ x) (h2 : x ≤ c) :
    linear x l = val (f + (g - f) / (c - a) * (x - a)) := by
  have hd : c - a ≠ 0 := (sub_pos.2 hac).ne'
  rcases h1.eq_or_lt with rfl | h1
  · rw [linear_node hs ha]; simp
  rcases h2.eq_or_lt with rfl | h2
  · rw [linear_node hs hc]; congr 1; field_simp; ring
  induction l with
  | nil => cases ha
  | cons p l ih =>
    obtain ⟨a0, f0⟩ := p
    obtain ⟨s1, s2⟩ := List.pairwise_cons.1 hs
    have h0 : a0 ≤ a := by
      rcases List.mem_cons.1 ha with e | h
      · cases e; exact le_rfl
      · exact (s1 _ h).le
    have hc' : (c, val g) ∈ l := by
      rcases List.mem_cons.1 hc with e | h
      · cases e; exact absurd hac (not_lt.2 h0)
      · exact h
    cases l with
    | nil => cases hc'
    | cons q l =>
      obtain ⟨c0, g0⟩ := q
      have hx0 : a0 < x := lt_of_le_of_lt h0 h1
      rw [linear, if_neg (not_lt.2 hx0.le), if_neg hx0.ne']
      rcases List.mem_cons.1 ha with e | ha'
      · cases e
        have hcc : c = c0 ∧ g0 = val g := by
          rcases List.mem_cons.1 hc' with e | h
          · cases e; exact ⟨rfl, rfl⟩
          · exact absurd ⟨s1 (c0, g0) (List.mem_cons_self ..), (List.pairwise_cons.1 s2).1 _ h⟩
              (hno (c0, g0) (by simp))
        obtain ⟨rfl, rfl⟩ := hcc
        rw [if_pos h2, val_sub, val_div _ _ hd, val_mul, val_add]
      · have hc0 : c0 ≤ x := by
          rcases List.mem_cons.1 ha' with e | h
          · cases e; exact h1.le
          · exact (((List.pairwise_cons.1 s2).1 _ h).trans h1).le
        rw [if_neg (not_lt.2 hc0)]
        exact ih s2 ha' hc' fun p hp => hno p (List.mem_cons_of_mem _ hp)

theorem linear_range {l : List (ℝ × NR)} (hs : Inc l) {x lo hi : ℝ}
    (hv : ∀ p ∈ l, ∃ y, p.2 = val y ∧ lo ≤ y ∧ y ≤ hi)
    (h1 : ∃ p ∈ l, p.1 ≤ x) (h2 : ∃ p ∈ l, x ≤ p.1) :
    ∃ y, linear x l = val y ∧ lo ≤ y ∧ y ≤ hi := by
  induction l with
  | nil => obtain ⟨p, hp, -⟩ := h1; cases hp
  | cons p l ih =>
    obtain ⟨a, f⟩ := p
    obtain ⟨s1, s2⟩ := List.pairwise_cons.1 hs
    have hax : a ≤ x := by
      obtain ⟨p, hp, h⟩ := h1
      rcases List.mem_cons.1 hp with e | h'
      · cases e; exact h
      · exact ((s1 _ h').trans_le h).le
    rcases hax.eq_or_lt with rfl | hax
    · rw [linear_head]; exact hv (a, f) (List.mem_cons_self ..)
    obtain ⟨q, hq, hxq⟩ := h2
    have hq' : q ∈ l := by
      rcases List.mem_cons.1 hq with e | h
      · subst e; exact absurd hax (not_lt.2 hxq)
      · exact h
    cases l with
    | nil => cases hq'
    | cons r l =>
      obtain ⟨c, g⟩ := r
      rw [linear, if_neg (not_lt.2 hax.le), if_neg hax.ne']
      split_ifs with hxc
      · obtain ⟨y, hy, y1, y2⟩ := hv (a, f) (List.mem_cons_self ..)
        obtain ⟨z, hz, z1, z2⟩ := hv (c, g) (by simp)
        have hac : a < c := s1 (c, g) (List.mem_cons_self ..)
        have hd : c - a ≠ 0 := (sub_pos.2 hac).ne'
        simp only at hy hz
        subst hy hz
        refine ⟨y + (z - y) / (c - a) * (x - a), by
          rw [val_sub, val_div _ _ hd, val_mul, val_add], ?_⟩
        have e : y + (z - y) / (c - a) * (x - a) =
            (y * (c - x) + z * (x - a)) / (c - a) := by field_simp; ring
        rw [e, le_div_iff₀ (sub_pos.2 hac), div_le_iff₀ (sub_pos.2 hac)]
        have p1 : 0 ≤ c - x := by linarith
        have p2 : 0 ≤ x - a := by linarith
        constructor <;> nlinarith
      · exact ih s2 (fun p hp => hv p (List.mem_cons_of_mem _ hp))
          ⟨_, List.mem_cons_self .., not_lt.1 hxc⟩ ⟨q, hq', hxq⟩

/-! ### Along a coordinate -/

variable {nodes : List ℝ} (f : ℕ → NR)

/-- The sorted table of `interp1`. -/
noncomputable def table (nodes : List ℝ) (f : ℕ → NR) : List (ℝ × NR) :=
  (nodes.zipIdx.insertionSort fun p q => p.1 ≤ q.1).map fun p => (p.1, f p.2)

theorem mem_table {p : ℝ × NR} : p ∈ table nodes f ↔ ∃ i : ℕ, nodes[i]? = some p.1 ∧ p.2 = f i := by
  unfold table
  simp only [List.mem_map, List.mem_insertionSort]
  constructor
  · rintro ⟨q, hq, rfl⟩
    exact ⟨q.2, by simpa using List.mem_zipIdx_iff_getElem?.1 hq, rfl⟩
  · rintro ⟨i, h, e⟩
    refine ⟨(p.1, i), List.mem_zipIdx_iff_getElem?.2 h, ?_⟩
    rw [← e]

theorem table_inc (h : nodes.Nodup) : Inc (table nodes f) := by
  unfold Inc table
  rw [List.pairwise_map]
  have h1 : (nodes.zipIdx.insertionSort fun p q => p.1 ≤ q.1).Pairwise fun p q => p.1 ≤ q.1 := by
    have : Std.Total (fun p q : ℝ × ℕ => p.1 ≤ q.1) := ⟨fun p q => le_total _ _⟩
    have : IsTrans (ℝ × ℕ) (fun p q => p.1 ≤ q.1) := ⟨fun _ _ _ => le_trans⟩
    exact List.pairwise_insertionSort _ _
  have h2 : (nodes.zipIdx.insertionSort fun p q => p.1 ≤ q.1).Pairwise fun p q => p.1 ≠ q.1 := by
    have hz : (nodes.zipIdx.map Prod.fst).Nodup := by simpa using h
    have := (List.perm_insertionSort (fun p q : ℝ × ℕ => p.1 ≤ q.1) nodes.zipIdx).map Prod.fst
    have hz' := this.nodup_iff.2 hz
    exact List.pairwise_map.1 hz'
  exact (h1.and h2).imp fun h => lt_of_le_of_ne h.1 h.2

theorem interp1_eq (x : ℝ) : interp1 nodes f x = linear x (table nodes f) := rfl

theorem interp1_node (h : nodes.Nodup) {i : ℕ} {x : ℝ} (hi : nodes[i]? = some x) :
    interp1 nodes f x = f i := by
  rw [interp1_eq]
  exact linear_node (table_inc f h) ((mem_table f).2 ⟨i, hi, rfl⟩)

theorem interp1_between (h : nodes.Nodup) {i j : ℕ} {a c x u w : ℝ}
    (hi : nodes[i]? = some a) (hj : nodes[j]? = some c) (hac : a < c)
    (hno : ∀ y ∈ nodes, ¬ (a < y ∧ y < c)) (h1 : a ≤ x) (h2 : x ≤ c)
    (hf : f i = val u) (hg : f j = val w) :
    interp1 nodes f x = val (u + (w - u) / (c - a) * (x - a)) := by
  rw [interp1_eq]
  refine linear_between (table_inc f h) ((mem_table f).2 ⟨i, hi, hf.symm⟩)
    ((mem_table f).2 ⟨j, hj, hg.symm⟩) hac ?_ h1 h2
  intro p hp
  obtain ⟨k, hk, -⟩ := (mem_table f).1 hp
  exact hno _ (List.mem_of_getElem? hk)

theorem interp1_outside {x : ℝ} (h : (∀ y ∈ nodes, x < y) ∨ ∀ y ∈ nodes, y < x) :
    interp1 nodes f x = nan := by
  rw [interp1_eq]
  have hm : ∀ p ∈ table nodes f, p.1 ∈ nodes := fun p hp => by
    obtain ⟨k, hk, -⟩ := (mem_table f).1 hp
    exact List.mem_of_getElem? hk
  rcases h with h | h
  · exact linear_below fun p hp => h _ (hm p hp)
  · exact linear_above fun p hp => h _ (hm p hp)

theorem interp1_nan (x : ℝ) (h : ∀ k, f k = nan) : interp1 nodes f x = nan := by
  rw [interp1_eq]
  refine linear_nan x fun p hp => ?_
  obtain ⟨k, -, e⟩ := (mem_table f).1 hp
  rw [e, h]

theorem interp1_range (h : nodes.Nodup) {x lo hi : ℝ}
    (hv : ∀ k, ∃ y, f k = val y ∧ lo ≤ y ∧ y ≤ hi)
    (h1 : ∃ y ∈ nodes, y ≤ x) (h2 : ∃ y ∈ nodes, x ≤ y) :
    ∃ y, interp1 nodes f x = val y ∧ lo ≤ y ∧ y ≤ hi := by
  rw [interp1_eq]
  refine linear_range (table_inc f h) ?_ ?_ ?_
  · intro p hp
    obtain ⟨k, -, e⟩ := (mem_table f).1 hp
    rw [e]; exact hv k
  · obtain ⟨y, hy, h⟩ := h1
    obtain ⟨k, hk, e⟩ := List.mem_iff_getElem.1 hy
    exact ⟨(y, f k), (mem_table f).2 ⟨k, by rw [List.getElem?_eq_getElem hk, e], rfl⟩, h⟩
  · obtain ⟨y, hy, h⟩ := h2
    obtain ⟨k, hk, e⟩ := List.mem_iff_getElem.1 hy
    exact ⟨(y, f k), (mem_table f).2 ⟨k, by rw [List.getElem?_eq_getElem hk, e], rfl⟩, h⟩

end Verif.Olr
