import Verif.Model.Regex
import Verif.Spec.Bada3Parse
import Verif.Lemmas.Registry

/-!
# Backtracking matcher: first alternatives of the patterns used
-/

namespace Verif.Regex
open Verif.Tables Verif.Registry Verif.Spec Verif.Spec.Opf

/-- The first way to match `r` at the start of `s` captures `ws` and leaves `rest`. -/
def Head (r : Re) (s : Str) (ws : List Str) (rest : Str) : Prop :=
  ∀ pv caps, ∃ pv' l, run r ⟨pv, s, caps⟩ = ⟨pv', rest, caps ++ ws⟩ :: l

/-- `r` does not match at the start of `s`. -/
def Fails (r : Re) (s : Str) : Prop := ∀ pv caps, run r ⟨pv, s, caps⟩ = []

theorem run_assoc (a b c : Re) (x : Pos) : run (.seq (.seq a b) c) x = run (.seq a (.seq b c)) x := by
  simp only [run, List.flatMap_assoc]

theorem head_assoc {a b c : Re} {s ws rest} (h : Head (.seq a (.seq b c)) s ws rest) :
    Head (.seq (.seq a b) c) s ws rest := fun pv caps => by
  rw [run_assoc]; exact h pv caps

theorem fails_assoc {a b c : Re} {s} (h : Fails (.seq a (.seq b c)) s) :
    Fails (.seq (.seq a b) c) s := fun pv caps => by
  rw [run_assoc]; exact h pv caps

theorem starEnds_run {p : ℕ → Bool} {P : ℕ → Prop} (hp : ∀ c, p c = true ↔ P c) (w rest : Str)
    (hw : ∀ c ∈ w, P c) (hr : ∀ c, rest.head? = some c → ¬ P c) (caps) :
    ∀ pv, ∃ pv' l, starEnds p pv caps (w ++ rest) = ⟨pv', rest, caps⟩ :: l ∧
      ∀ y ∈ l, y.caps = caps ∧ ∃ w' c, y.rest = c :: (w' ++ rest) ∧ P c ∧
        ∃ u, w = u ++ c :: w' := by
  induction w with
  | nil =>
    intro pv
    cases rest with
    | nil => exact ⟨pv, [], rfl, by simp⟩
    | cons c r =>
      refine ⟨pv, [], ?_, by simp⟩
      have : p c = false := by
        rw [Bool.eq_false_iff]; intro h; exact hr c rfl ((hp c).1 h)
      simp [starEnds, this]
  | cons c w ih =>
    intro pv
    have hc : p c = true := (hp c).2 (hw c (by simp))
    obtain ⟨pv', l, h, hl⟩ := ih (fun d hd => hw d (by simp [hd])) (some c)
    refine ⟨pv', l ++ [⟨pv, c :: (w ++ rest), caps⟩], ?_, ?_⟩
    · simp [starEnds, hc, h]
    · intro y hy
      rcases List.mem_append.1 hy with hy | hy
      · obtain ⟨h1, w', d, h2, h3, u, h4⟩ := hl y hy
        exact ⟨h1, w', d, h2, h3, c :: u, by simp [h4]⟩
      · obtain rfl := List.mem_singleton.1 hy
        exact ⟨rfl, w, c, rfl, hw c (by simp), [], rfl⟩

section plus
variable {p : ℕ → Bool} {P : ℕ → Prop} (hp : ∀ c, p c = true ↔ P c)
include hp

theorem plus_run {w rest : Str} (h : Run P w rest) (pv caps) :
    ∃ pv' l, run (.plus p) ⟨pv, w ++ rest, caps⟩ = ⟨pv', rest, caps⟩ :: l ∧
      ∀ y ∈ l, y.caps = caps ∧ ∃ w' c, y.rest = c :: (w' ++ rest) ∧ P c ∧
        ∃ u, w = u ++ c :: w' := by
  obtain ⟨h0, h1, h2⟩ := h
  cases w with
  | nil => exact absurd rfl h0
  | cons c w =>
    have hc : p c = true := (hp c).2 (h1 c (by simp))
    obtain ⟨pv', l, e, hl⟩ := starEnds_run hp w rest (fun d hd => h1 d (by simp [hd])) h2 caps (some c)
    refine ⟨pv', l, ?_, fun y hy => ?_⟩
    · simp [run, hc, e]
    · obtain ⟨h1, w', d, h2, h3, u, h4⟩ := hl y hy
      exact ⟨h1, w', d, h2, h3, c :: u, by simp [h4]⟩

theorem plus_no {s : Str} (h : ∀ c, s.head? = some c → ¬ P c) : Fails (.plus p) s := by
  intro pv caps
  cases s with
  | nil => rfl
  | cons c r =>
    have : p c = false := by
      rw [Bool.eq_false_iff]; intro h'; exact h c rfl ((hp c).1 h')
    simp [run, this]

theorem plus_only {b : Re} (hb : ∀ c r, P c → Fails b (c :: r)) {w rest : Str} (h : Run P w rest)
    (pv caps) : ∃ pv', run (.seq (.plus p) b) ⟨pv, w ++ rest, caps⟩ = run b ⟨pv', rest, caps⟩ := by
  obtain ⟨pv', l, e, hl⟩ := plus_run hp h pv caps
  refine ⟨pv', ?_⟩
  have : l.flatMap (run b) = [] := by
    rw [List.flatMap_eq_nil_iff]
    intro y hy
    obtain ⟨_, w', c, h2, h3, _⟩ := hl y hy
    obtain ⟨pvy, ry, cy⟩ := y
    simp only at h2
    subst h2
    exact hb c _ h3 pvy cy
  simp only [run] at e ⊢
  rw [e, List.flatMap_cons, this, List.append_nil]

theorem capplus_only {b : Re} (hb : ∀ c r, P c → Fails b (c :: r)) {w rest : Str} (h : Run P w rest)
    (pv caps) : ∃ pv', run (.seq (.cap (.plus p)) b) ⟨pv, w ++ rest, caps⟩ =
      run b ⟨pv', rest, caps ++ [w]⟩ := by
  obtain ⟨pv', l, e, hl⟩ := plus_run hp h pv caps
  refine ⟨pv', ?_⟩
  rw [run, run, e, List.map_cons, List.flatMap_cons]
  have : (List.map (fun y : Pos => { y with caps := y.caps ++
      [(w ++ rest).take ((w ++ rest).length - y.rest.length)] }) l).flatMap (run b) = [] := by
    rw [List.flatMap_eq_nil_iff]
    intro z hz
    obtain ⟨y, hy, rfl⟩ := List.mem_map.1 hz
    obtain ⟨_, w', c, h2, h3, _⟩ := hl y hy
    obtain ⟨pvy, ry, cy⟩ := y
    simp only at h2
    subst h2
    exact hb c _ h3 pvy _
  rw [this]
  simp

theorem head_plus {b : Re} (hb : ∀ c r, P c → Fails b (c :: r)) {w rest r : Str} {ws}
    (h : Run P w rest) (hh : Head b rest ws r) : Head (.seq (.plus p) b) (w ++ rest) ws r := by
  intro pv caps
  obtain ⟨pv', e⟩ := plus_only hp hb h pv caps
  rw [e]; exact hh pv' caps

theorem head_capplus {b : Re} (hb : ∀ c r, P c → Fails b (c :: r)) {w rest r : Str} {ws}
    (h : Run P w rest) (hh : Head b rest ws r) :
    Head (.seq (.cap (.plus p)) b) (w ++ rest) (w :: ws) r := by
  intro pv caps
  obtain ⟨pv', e⟩ := capplus_only hp hb h pv caps
  rw [e]
  obtain ⟨pv'', l, e'⟩ := hh pv' (caps ++ [w])
  exact ⟨pv'', l, by rw [e']; simp⟩

theorem head_last {w rest : Str} (h : Run P w rest) : Head (.plus p) (w ++ rest) [] rest := by
  intro pv caps
  obtain ⟨pv', l, e, _⟩ := plus_run hp h pv caps
  exact ⟨pv', l, by simpa using e⟩

theorem head_caplast {w rest : Str} (h : Run P w rest) :
    Head (.cap (.plus p)) (w ++ rest) [w] rest := by
  intro pv caps
  obtain ⟨pv', l, e, _⟩ := plus_run hp h pv caps
  rw [run, e]
  exact ⟨pv', _, by simp; rfl⟩

omit hp in
/-- Either `s` starts with a maximal run or with a character outside the class. -/
theorem run_split (P : ℕ → Prop) (s : Str) : (∃ w rest, s = w ++ rest ∧ Run P w rest) ∨
    ∀ c, s.head? = some c → ¬ P c := by
  induction s with
  | nil => right; simp
  | cons c s ih =>
    by_cases hc : P c
    · left
      rcases ih with ⟨w, rest, e, h⟩ | h
      · exact ⟨c :: w, rest, by simp [e], by simp, by
          intro d hd
          rcases List.mem_cons.1 hd with rfl | hd
          · exact hc
          · exact h.2.1 d hd, h.2.2⟩
      · exact ⟨[c], s, rfl, by simp, by simpa using hc, h⟩
    · right
      intro d hd
      simp only [List.head?_cons, Option.some.injEq] at hd
      exact hd ▸ hc

theorem fails_plus {b : Re} (hb : ∀ c r, P c → Fails b (c :: r)) {s : Str}
    (h : ∀ w rest, s = w ++ rest → Run P w rest → Fails b rest) : Fails (.seq (.plus p) b) s := by
  intro pv caps
  rcases run_split P s with ⟨w, rest, rfl, hr⟩ | hr
  · obtain ⟨pv', e⟩ := plus_only hp hb hr pv caps
    rw [e]; exact h w rest rfl hr pv' caps
  · rw [run, plus_no hp hr]; rfl

theorem fails_capplus {b : Re} (hb : ∀ c r, P c → Fails b (c :: r)) {s : Str}
    (h : ∀ w rest, s = w ++ rest → Run P w rest → Fails b rest) :
    Fails (.seq (.cap (.plus p)) b) s := by
  intro pv caps
  rcases run_split P s with ⟨w, rest, rfl, hr⟩ | hr
  · obtain ⟨pv', e⟩ := capplus_only hp hb hr pv caps
    rw [e]; exact h w rest rfl hr pv' _
  · rw [run, run, plus_no hp hr]; rfl

theorem fails_last {s : Str} (h : ∀ w rest, s = w ++ rest → Run P w rest → False) :
    Fails (.plus p) s := by
  rcases run_split P s with ⟨w, rest, rfl, hr⟩ | hr
  · exact (h w rest rfl hr).elim
  · exact plus_no hp hr

theorem fails_caplast {s : Str} (h : ∀ w rest, s = w ++ rest → Run P w rest → False) :
    Fails (.cap (.plus p)) s := by
  intro pv caps
  rw [run, fails_last hp h]; rfl

/-- A pattern that starts with `p+` rejects a text that starts otherwise. -/
theorem fails_start (b : Re) {c : ℕ} {r : Str} (h : ¬ P c) : Fails (.seq (.plus p) b) (c :: r) := by
  intro pv caps
  rw [run, plus_no hp (by simpa using h)]; rfl

theorem fails_capstart (b : Re) {c : ℕ} {r : Str} (h : ¬ P c) :
    Fails (.seq (.cap (.plus p)) b) (c :: r) := by
  intro pv caps
  rw [run, run, plus_no hp (by simpa using h)]; rfl

end plus

theorem run_seq_cls (p : ℕ → Bool) (b : Re) (pv c r caps) :
    run (.seq (.cls p) b) ⟨pv, c :: r, caps⟩ = if p c then run b ⟨some c, r, caps⟩ else [] := by
  by_cases h : p c <;> simp [run, h]

theorem run_seq_cls_nil (p : ℕ → Bool) (b : Re) (pv caps) :
    run (.seq (.cls p) b) ⟨pv, [], caps⟩ = [] := by
  simp [run]

theorem run_seq_eps (b : Re) (x) : run (.seq .eps b) x = run b x := by simp [run]

theorem lit_only (k rest : Str) (b : Re) (pv caps) :
    run (.seq (lit k) b) ⟨pv, k ++ rest, caps⟩ = run b ⟨k.getLast?.or pv, rest, caps⟩ := by
  induction k generalizing pv with
  | nil => simp [lit, run_seq_eps]
  | cons c k ih =>
    rw [lit, run_assoc, List.cons_append, run_seq_cls, if_pos (by simp), ih]
    cases k <;> simp [List.getLast?_cons]

theorem lit_no {k s : Str} (b : Re) (h : ∀ rest, s ≠ k ++ rest) : Fails (.seq (lit k) b) s := by
  intro pv caps
  induction k generalizing pv s with
  | nil => exact absurd rfl (h s)
  | cons c k ih =>
    rw [lit, run_assoc]
    cases s with
    | nil => exact run_seq_cls_nil ..
    | cons d s =>
      rw [run_seq_cls]
      split
      · rename_i hd
        obtain rfl : d = c := by simpa using hd
        exact ih (fun rest e => h rest (by rw [e]; rfl)) _
      · rfl

theorem head_lit {k rest r : Str} {b : Re} {ws} (h : Head b rest ws r) :
    Head (.seq (lit k) b) (k ++ rest) ws r := by
  intro pv caps
  rw [lit_only]; exact h _ _

theorem fails_lit {k s : Str} {b : Re} (h : ∀ rest, s = k ++ rest → Fails b rest) :
    Fails (.seq (lit k) b) s := by
  by_cases hk : ∃ rest, s = k ++ rest
  · obtain ⟨rest, rfl⟩ := hk
    intro pv caps
    rw [lit_only]; exact h rest rfl _ _
  · exact lit_no b fun rest e => hk ⟨rest, e⟩

theorem loC_eq (c d : ℕ) : loC d = loC c ↔ SameLetter c d := by
  unfold loC SameLetter
  split <;> split <;> omega

theorem litCI_only (k e rest : Str) (b : Re) (h : SameText k e) (pv caps) :
    ∃ pv', run (.seq (litCI k) b) ⟨pv, e ++ rest, caps⟩ = run b ⟨pv', rest, caps⟩ := by
  induction h generalizing pv with
  | nil => exact ⟨pv, by simp [litCI, run_seq_eps]⟩
  | cons hc _ ih =>
    rename_i c d k e _
    obtain ⟨pv', e'⟩ := ih (some d)
    exact ⟨pv', by rw [litCI, run_assoc, List.cons_append, run_seq_cls,
      if_pos (by simpa using (loC_eq c d).2 hc), e']⟩

theorem litCI_no {k s : Str} (b : Re) (h : ∀ e rest, s = e ++ rest → ¬ SameText k e) :
    Fails (.seq (litCI k) b) s := by
  intro pv caps
  induction k generalizing pv s with
  | nil => exact absurd List.Forall₂.nil (h [] s rfl)
  | cons c k ih =>
    rw [litCI, run_assoc]
    cases s with
    | nil => exact run_seq_cls_nil ..
    | cons d s =>
      rw [run_seq_cls]
      split
      · rename_i hd
        refine ih (fun e rest e' hs => h (d :: e) rest (by rw [e']; rfl) (.cons ?_ hs)) _
        exact (loC_eq c d).1 (by simpa using hd)
      · rfl

theorem run_litCI (k : Str) (x : Pos) : run (litCI k) x = run (.seq (litCI k) .eps) x := by
  simp [run]

theorem head_litCI {k e rest r : Str} {b : Re} {ws} (he : SameText k e) (h : Head b rest ws r) :
    Head (.seq (litCI k) b) (e ++ rest) ws r := by
  intro pv caps
  obtain ⟨pv', e'⟩ := litCI_only k e rest b he pv caps
  rw [e']; exact h _ _

theorem fails_litCI {k s : Str} {b : Re}
    (h : ∀ e rest, s = e ++ rest → SameText k e → Fails b rest) : Fails (.seq (litCI k) b) s := by
  by_cases hk : ∃ e rest, s = e ++ rest ∧ SameText k e
  · obtain ⟨e, rest, rfl, he⟩ := hk
    intro pv caps
    obtain ⟨pv', e'⟩ := litCI_only k e rest b he pv caps
    rw [e']; exact h e rest rfl he _ _
  · exact litCI_no b fun e rest h1 h2 => hk ⟨e, rest, h1, h2⟩

/-! ### Skipping lazily over any characters -/

theorem lazyEnds_mem (pv caps) (s : Str) : ∀ y ∈ lazyEnds any pv caps s,
    y.caps = caps ∧ ∃ a, s = a ++ y.rest ∧ y.prev = a.getLast?.or pv := by
  induction s generalizing pv with
  | nil => intro y hy; simp [lazyEnds] at hy; subst hy; simp
  | cons c s ih =>
    intro y hy
    simp only [lazyEnds, any, if_true, List.mem_cons] at hy
    rcases hy with rfl | hy
    · exact ⟨rfl, [], by simp⟩
    · obtain ⟨h1, a, h2, h3⟩ := ih (some c) y hy
      refine ⟨h1, c :: a, by simp [h2.symm], ?_⟩
      rw [h3]; cases a <;> simp [List.getLast?_cons]

theorem lazyEnds_split (pv caps) (a t : Str) : ∃ l l',
    lazyEnds any pv caps (a ++ t) = l ++ ⟨a.getLast?.or pv, t, caps⟩ :: l' ∧
      ∀ y ∈ l, y.caps = caps ∧ ∃ a', a ++ t = a' ++ y.rest ∧ a'.length < a.length ∧
        y.prev = a'.getLast?.or pv := by
  induction a generalizing pv with
  | nil =>
    cases t with
    | nil => exact ⟨[], [], by simp [lazyEnds]⟩
    | cons c t => exact ⟨[], lazyEnds any (some c) caps t, by simp [lazyEnds, any], by simp⟩
  | cons c a ih =>
    obtain ⟨l, l', e, hl⟩ := ih (some c)
    refine ⟨⟨pv, c :: (a ++ t), caps⟩ :: l, l', ?_, ?_⟩
    · simp only [List.cons_append, lazyEnds, any, if_true]
      rw [e]
      congr 3
      cases a <;> simp [List.getLast?_cons]
    · intro y hy
      rcases List.mem_cons.1 hy with rfl | hy
      · exact ⟨rfl, [], by simp⟩
      · obtain ⟨h1, a', h2, h3, h4⟩ := hl y hy
        refine ⟨h1, c :: a', by simp [h2], by simpa using h3, ?_⟩
        rw [h4]; cases a' <;> simp [List.getLast?_cons]

theorem head_lazy {b : Re} {a t r : Str} {ws} (h : Head b t ws r)
    (hf : ∀ a' t', a ++ t = a' ++ t' → a'.length < a.length → Fails b t') :
    Head (.seq (.lazy any) b) (a ++ t) ws r := by
  intro pv caps
  obtain ⟨l, l', e, hl⟩ := lazyEnds_split pv caps a t
  have h0 : l.flatMap (run b) = [] := by
    rw [List.flatMap_eq_nil_iff]
    rintro ⟨pvy, ry, cy⟩ hy
    obtain ⟨_, a', h2, h3, _⟩ := hl _ hy
    exact hf a' ry h2 h3 pvy cy
  obtain ⟨pv', l'', e'⟩ := h (a.getLast?.or pv) caps
  rw [run, run, e, List.flatMap_append, h0, List.nil_append, List.flatMap_cons, e']
  exact ⟨_, _, rfl⟩

theorem fails_lazy {b : Re} {s : Str} (h : ∀ a t, s = a ++ t → Fails b t) :
    Fails (.seq (.lazy any) b) s := by
  intro pv caps
  rw [run, run, List.flatMap_eq_nil_iff]
  rintro ⟨pvy, ry, cy⟩ hy
  obtain ⟨_, a, h2, _⟩ := lazyEnds_mem pv caps s _ hy
  exact h a ry h2 pvy cy

/-! ### Searching -/

theorem matchAt_head {r : Re} {s : Str} {ws rest} (h : Head r s ws rest) (pv) :
    matchAt r pv s = some ⟨s.take (s.length - rest.length), ws⟩ := by
  obtain ⟨pv', l, e⟩ := h pv []
  simp [matchAt, e]

theorem matchAt_fails {r : Re} {s : Str} (h : Fails r s) (pv) : matchAt r pv s = none := by
  simp [matchAt, h pv []]

theorem searchFrom_split {r : Re} (a t : Str) {ws rest} (h : Head r t ws rest)
    (hf : ∀ a' t', a ++ t = a' ++ t' → a'.length < a.length → Fails r t') (pv) :
    searchFrom r pv (a ++ t) = some ⟨t.take (t.length - rest.length), ws⟩ := by
  induction a generalizing pv with
  | nil =>
    cases t with
    | nil => simp only [List.append_nil, searchFrom]; exact matchAt_head h pv
    | cons c t => simp only [List.nil_append, searchFrom]; rw [matchAt_head h pv]
  | cons c a ih =>
    rw [List.cons_append, searchFrom, matchAt_fails (hf [] _ (by simp) (by simp)) pv]
    exact ih (fun a' t' e hl => hf (c :: a') t' (by simp [e]) (by simpa using hl)) _

theorem search_head {r : Re} (a t : Str) {ws rest} (h : Head r t ws rest)
    (hf : ∀ a' t', a ++ t = a' ++ t' → a'.length < a.length → Fails r t') :
    search r (a ++ t) = some ⟨t.take (t.length - rest.length), ws⟩ := searchFrom_split a t h hf none

theorem search_none {r : Re} {s : Str} (h : ∀ a t, s = a ++ t → Fails r t) : search r s = none := by
  unfold search
  generalize (none : Option ℕ) = pv
  induction s generalizing pv with
  | nil => exact matchAt_fails (h [] [] rfl) pv
  | cons c s ih =>
    rw [searchFrom, matchAt_fails (h [] _ rfl) pv]
    exact ih (fun a t e => h (c :: a) t (by simp [e])) _

/-- A text either contains a place where `P` holds, and then a first one, or none. -/
theorem first_split (P : Str → Prop) (s : Str) :
    (∃ a t, s = a ++ t ∧ P t ∧ ∀ a' t', s = a' ++ t' → P t' → a.length ≤ a'.length) ∨
      ∀ a t, s = a ++ t → ¬ P t := by
  by_cases h : ∃ n, ∃ a t, s = a ++ t ∧ P t ∧ a.length = n
  · left
    classical
    obtain ⟨a, t, h1, h2, h3⟩ := Nat.find_spec h
    refine ⟨a, t, h1, h2, fun a' t' e hp => ?_⟩
    rw [h3]
    exact Nat.find_le ⟨a', t', e, hp, rfl⟩
  · right
    intro a t e hp
    exact h ⟨_, a, t, e, hp, rfl⟩

end Verif.Regex
