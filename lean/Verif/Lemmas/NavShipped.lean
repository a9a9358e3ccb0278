import Verif.Model.Airports
import Mathlib.Data.List.Chain
import Mathlib.Tactic.Linarith

/-! Checks over the complete shipped airport table, evaluated by the kernel. -/

namespace Verif.Nav
open Verif.Tables Verif.Registry

/-- Lexicographic order of character codes. -/
def strLt : Str → Str → Bool
  | [], [] => false
  | [], _ :: _ => true
  | _ :: _, [] => false
  | a :: s, b :: t => Nat.blt a b || (Nat.beq a b && strLt s t)

/-- Only capital letters. -/
def capitals (s : Str) : Bool := s.all fun c => Nat.ble 65 c && Nat.ble c 90

/-- Capital letters, no code `NULL`, coordinates in range, codes strictly increasing. -/
def checkRows : List ℕ → Bool
  | [] => true
  | a :: t =>
    capitals (decode a).icao && capitals (decode a).country && !((decode a).icao == [78, 85, 76, 76]) &&
    Nat.ble (a / 10 ^ 13 % 10 ^ 8) 18000000 && Nat.ble (a / 10 ^ 5 % 10 ^ 8) 36000000 &&
    (match t with | [] => true | b :: _ => strLt (decode a).icao (decode b).icao) && checkRows t

set_option maxRecDepth 100000 in
theorem shipped_checked : checkRows Data.Airports.rows.flatten = true := by decide +kernel

set_option maxRecDepth 100000 in
theorem shipped_na : (shippedInt.filter fun r => r.country == [78, 65]).length = 176 := by
  decide +kernel

theorem strLt_trans {a b c : Str} (h1 : strLt a b = true) (h2 : strLt b c = true) :
    strLt a c = true := by
  induction a generalizing b c with
  | nil => cases b <;> cases c <;> simp_all [strLt]
  | cons x s ih =>
    cases b with
    | nil => simp [strLt] at h1
    | cons y t =>
      cases c with
      | nil => simp [strLt] at h2
      | cons z u =>
        simp only [strLt, Bool.or_eq_true, Bool.and_eq_true, Nat.blt_eq, Nat.beq_eq] at *
        rcases h1 with h1 | ⟨rfl, h1⟩ <;> rcases h2 with h2 | ⟨rfl, h2⟩
        · exact Or.inl (h1.trans h2)
        · exact Or.inl h1
        · exact Or.inl h2
        · exact Or.inr ⟨rfl, ih h1 h2⟩

theorem strLt_irrefl (a : Str) : strLt a a = false := by
  induction a with
  | nil => rfl
  | cons x s ih =>
    simp only [strLt, ih, Bool.and_false, Bool.or_false]
    by_contra h
    rw [Bool.not_eq_false, Nat.blt_eq] at h
    exact lt_irrefl _ h

theorem checkRows_chain {l : List ℕ} (h : checkRows l = true) :
    (l.map decode).IsChain fun a b => strLt a.icao b.icao = true := by
  induction l with
  | nil => simp
  | cons a t ih =>
    simp only [checkRows, Bool.and_eq_true] at h
    cases t with
    | nil => simp
    | cons b t =>
      rw [List.map_cons, List.map_cons, List.isChain_cons_cons]
      exact ⟨h.1.2, by simpa using ih h.2⟩

theorem shipped_sorted : shippedInt.Pairwise fun a b => strLt a.icao b.icao = true := by
  have : IsTrans IntRow fun a b => strLt a.icao b.icao = true := ⟨fun _ _ _ => strLt_trans⟩
  exact List.isChain_iff_pairwise.1 (checkRows_chain shipped_checked)

theorem checkRows_mem {l : List ℕ} (h : checkRows l = true) {a : ℕ} (ha : a ∈ l) :
    capitals (decode a).icao = true ∧ capitals (decode a).country = true ∧
    (decode a).icao ≠ [78, 85, 76, 76] ∧ a / 10 ^ 13 % 10 ^ 8 ≤ 18000000 ∧ a / 10 ^ 5 % 10 ^ 8 ≤ 36000000 := by
  induction l with
  | nil => simp at ha
  | cons b t ih =>
    simp only [checkRows, Bool.and_eq_true] at h
    rcases List.mem_cons.1 ha with rfl | ha
    · exact ⟨h.1.1.1.1.1.1, h.1.1.1.1.1.2, by simpa using h.1.1.1.1.2, Nat.le_of_ble_eq_true h.1.1.1.2, Nat.le_of_ble_eq_true h.1.1.2⟩
    · exact ih h.2 ha

theorem shippedInt_mem {r : IntRow} (hr : r ∈ shippedInt) :
    capitals r.icao = true ∧ capitals r.country = true ∧ r.icao ≠ [78, 85, 76, 76] ∧
    -9000000 ≤ r.lat ∧ r.lat ≤ 9000000 ∧ -18000000 ≤ r.lon ∧ r.lon ≤ 18000000 ∧
    r.icao.length = 4 ∧ r.country.length = 2 := by
  obtain ⟨a, ha, rfl⟩ := List.mem_map.1 hr
  obtain ⟨h1, h2, h5, h3, h4⟩ := checkRows_mem shipped_checked ha
  refine ⟨h1, h2, h5, ?_, ?_, ?_, ?_, rfl, rfl⟩ <;> simp only [decode] <;> omega

theorem upper_capitals {s : Str} (h : capitals s = true) : upper s = s := by
  unfold upper
  conv_rhs => rw [← List.map_id s]
  apply List.map_congr_left
  intro c hc
  have := List.all_eq_true.1 h c hc
  rw [Bool.and_eq_true] at this
  have h1 := Nat.le_of_ble_eq_true this.1
  have h2 := Nat.le_of_ble_eq_true this.2
  unfold upC
  rw [if_neg (by omega)]; rfl

end Verif.Nav
