import Mathlib.Data.List.Chain
import Mathlib.Order.WellFounded
import Mathlib.Data.Prod.Lex

/-!
# `while True` loops that record rows

`data.append(row); ...; if ...: break` of `/repo/openap/gen.py`. One pass of the body returns the
next state and whether it ended with `break`.
-/

namespace Verif

section
variable {σ ρ : Type} (body : σ → σ × Bool) (row : σ → ρ)

/-- The rows appended by the loop started in `s`, if it ends within `n` passes. -/
def loop : ℕ → σ → Option (List ρ)
  | 0, _ => none
  | n + 1, s =>
    if (body s).2 then some [row s] else (loop n (body s).1).map (row s :: ·)

/-- The loop started in `s` ends, having appended `rows`. -/
def LoopReturns (s : σ) (rows : List ρ) : Prop := ∃ n, loop body row n s = some rows

/-- States at the loop head of an ending execution started in `s`. -/
inductive Trace : σ → List σ → Prop
  | last {s} : (body s).2 = true → Trace s [s]
  | step {s ss} : (body s).2 = false → Trace (body s).1 ss → Trace s (s :: ss)

end

section
variable {σ ρ : Type} {body : σ → σ × Bool} {row : σ → ρ}

theorem loop_of_trace {s : σ} {ss : List σ} (h : Trace body s ss) :
    ∀ n, ss.length ≤ n → loop body row n s = some (ss.map row) := by
  induction h with
  | last hb =>
    intro n hn
    cases n with
    | zero => simp at hn
    | succ n => simp [loop, hb]
  | step hb _ ih =>
    intro n hn
    cases n with
    | zero => simp at hn
    | succ n => simp [loop, hb, ih n (by simpa using hn)]

theorem trace_of_loop {n : ℕ} {s : σ} {rows : List ρ} (h : loop body row n s = some rows) :
    ∃ ss, Trace body s ss ∧ rows = ss.map row := by
  induction n generalizing s rows with
  | zero => simp [loop] at h
  | succ n ih =>
    rw [loop] at h
    by_cases hb : (body s).2 = true
    · rw [if_pos hb] at h
      exact ⟨[s], .last hb, by simpa using h.symm⟩
    · rw [if_neg hb] at h
      obtain ⟨r, hr, rfl⟩ := Option.map_eq_some_iff.1 h
      obtain ⟨ss, ht, rfl⟩ := ih hr
      exact ⟨s :: ss, .step (by simpa using hb) ht, rfl⟩

theorem loop_mono {n m : ℕ} {s : σ} {rows : List ρ} (h : loop body row n s = some rows)
    (hm : n ≤ m) : loop body row m s = some rows := by
  induction n generalizing s rows m with
  | zero => simp [loop] at h
  | succ n ih =>
    cases m with
    | zero => omega
    | succ m =>
      rw [loop] at h ⊢
      split_ifs at h ⊢ with hb
      · exact h
      · obtain ⟨r, hr, rfl⟩ := Option.map_eq_some_iff.1 h
        rw [ih hr (by omega), Option.map_some]

theorem returns_iff {s : σ} {rows : List ρ} :
    LoopReturns body row s rows ↔ ∃ ss, Trace body s ss ∧ rows = ss.map row := by
  constructor
  · rintro ⟨n, h⟩
    exact trace_of_loop h
  · rintro ⟨ss, h, rfl⟩
    exact ⟨_, loop_of_trace h _ le_rfl⟩

theorem trace_unique {s : σ} {ss ss' : List σ} (h : Trace body s ss) (h' : Trace body s ss') :
    ss = ss' := by
  induction h generalizing ss' with
  | last hb =>
    cases h' with
    | last => rfl
    | step hb' => rw [hb] at hb'; cases hb'
  | step hb _ ih =>
    cases h' with
    | last hb' => rw [hb] at hb'; cases hb'
    | step _ h2 => rw [ih h2]

/-- The rows do not depend on the bound. -/
theorem returns_unique {s : σ} {rows rows' : List ρ} (h : LoopReturns body row s rows)
    (h' : LoopReturns body row s rows') : rows = rows' := by
  obtain ⟨ss, t, rfl⟩ := returns_iff.1 h
  obtain ⟨ss', t', rfl⟩ := returns_iff.1 h'
  rw [trace_unique t t']

theorem trace_ne_nil {s : σ} {ss : List σ} (h : Trace body s ss) : ss ≠ [] := by
  cases h <;> simp

theorem trace_head {s : σ} {ss : List σ} (h : Trace body s ss) : ss.head? = some s := by
  cases h <;> rfl

/-- An invariant holds in every state of the execution. -/
theorem trace_inv {Inv : σ → Prop} (hi : ∀ s, Inv s → (body s).2 = false → Inv (body s).1)
    {s : σ} {ss : List σ} (h : Trace body s ss) (h0 : Inv s) : ∀ x ∈ ss, Inv x := by
  induction h with
  | last => simpa using h0
  | step hb _ ih =>
    intro x hx
    rcases List.mem_cons.1 hx with rfl | hx
    · exact h0
    · exact ih (hi _ h0 hb) x hx

/-- A relation between consecutive states of the execution. -/
theorem trace_chain {Inv : σ → Prop} {R : σ → σ → Prop}
    (hi : ∀ s, Inv s → (body s).2 = false → Inv (body s).1 ∧ R s (body s).1)
    {s : σ} {ss : List σ} (h : Trace body s ss) (h0 : Inv s) : ss.IsChain R := by
  induction h with
  | last => exact .singleton _
  | @step s ss hb ht ih =>
    have := hi s h0 hb
    have ih := ih this.1
    cases ht with
    | last => exact .cons_cons this.2 (.singleton _)
    | step => exact .cons_cons this.2 ih

/-- The last state is the one in which the body breaks. -/
theorem trace_last {s : σ} {ss : List σ} (h : Trace body s ss) :
    ∃ x, ss.getLast? = some x ∧ (body x).2 = true := by
  induction h with
  | @last s hb => exact ⟨s, rfl, hb⟩
  | @step s ss hb ht ih =>
    obtain ⟨x, hx, hb'⟩ := ih
    exact ⟨x, by rw [List.getLast?_cons, hx]; rfl, hb'⟩

/-- Termination by a well-founded measure. -/
theorem trace_exists {β : Type} {r : β → β → Prop} (wf : WellFounded r) (μ : σ → β)
    {Inv : σ → Prop}
    (hi : ∀ s, Inv s → (body s).2 = false → Inv (body s).1 ∧ r (μ (body s).1) (μ s))
    (s : σ) (h0 : Inv s) : ∃ ss, Trace body s ss := by
  generalize hm : μ s = m
  induction m using wf.induction generalizing s with
  | _ m ih =>
    by_cases hb : (body s).2 = true
    · exact ⟨[s], .last hb⟩
    · have hb : (body s).2 = false := by simpa using hb
      obtain ⟨h1, h2⟩ := hi s h0 hb
      obtain ⟨ss, ht⟩ := ih _ (hm ▸ h2) _ h1 rfl
      exact ⟨_, .step hb ht⟩

/-- Non-termination by an invariant that excludes `break`. -/
theorem no_trace {Inv : σ → Prop} (hi : ∀ s, Inv s → (body s).2 = false ∧ Inv (body s).1)
    {s : σ} (h0 : Inv s) : ¬ ∃ ss, Trace body s ss := by
  rintro ⟨ss, h⟩
  induction h with
  | last hb =>
    rw [(hi _ h0).1] at hb
    cases hb
  | step _ _ ih => exact ih (hi _ h0).2

end

end Verif
