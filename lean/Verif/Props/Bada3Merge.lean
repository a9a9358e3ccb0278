import Verif.Model.Bada3Merge

/-!
# C79: merging BADA3 data into an aircraft record
-/

namespace Verif.Props
open Verif Verif.Bada3 Verif.Tables

variable {L : Type}

/-- The keys of a dictionary in order. -/
def keys (d : List (Str × Val L)) : List Str := d.map Prod.fst

/-- A dictionary whose keys are all different, at every level (as in Python). -/
inductive IsDict : List (Str × Val L) → Prop
  | nil : IsDict []
  | leaf {k x d} : IsDict d → k ∉ keys d → IsDict ((k, .leaf x) :: d)
  | dict {k e d} : IsDict e → IsDict d → k ∉ keys d → IsDict ((k, .dict e) :: d)

/-- The value at a path of keys, as in `d["wing"]["area"]`. -/
def at? : Val L → List Str → Option (Val L)
  | v, [] => some v
  | .dict d, k :: p => (get? d k).bind fun v => at? v p
  | .leaf _, _ :: _ => none

theorem get?_eq_none {d : List (Str × Val L)} {k : Str} : get? d k = none ↔ k ∉ keys d := by
  induction d with
  | nil => simp [get?, keys]
  | cons e d ih =>
    unfold get?
    split_ifs with h
    · simp [keys, h]
    · rw [ih]; simp only [keys, List.map_cons, List.mem_cons, not_or]
      exact ⟨fun hk => ⟨fun h' => h h'.symm, hk⟩, fun hk => hk.2⟩

theorem get?_put {d : List (Str × Val L)} {k k' : Str} {v : Val L} :
    get? (put d k v) k' = if k = k' then some v else get? d k' := by
  induction d with
  | nil => simp [put, get?]
  | cons e d ih =>
    unfold put
    by_cases h : e.1 = k
    · rw [if_pos h]
      by_cases hk : k = k'
      · simp [get?, hk]
      · simp only [get?, if_neg hk]
        rw [if_neg (by rw [h]; exact hk)]
    · rw [if_neg h]
      simp only [get?]
      by_cases hk : k = k'
      · rw [if_pos hk, if_neg (by rw [← hk]; exact h), ih, if_pos hk]
      · rw [if_neg hk, ih, if_neg hk]

theorem put_self {d : List (Str × Val L)} {k : Str} {v : Val L} (h : get? d k = some v) :
    put d k v = d := by
  induction d with
  | nil => simp [get?] at h
  | cons e d ih =>
    unfold get? at h
    unfold put
    split_ifs at h ⊢ with hk
    · rw [← Option.some.inj h, ← hk]
    · rw [ih h]

theorem keys_put {d : List (Str × Val L)} {k : Str} {v : Val L} :
    keys (put d k v) = if k ∈ keys d then keys d else keys d ++ [k] := by
  induction d with
  | nil => simp [put, keys]
  | cons e d ih =>
    unfold put
    by_cases h : e.1 = k
    · simp [keys, h]
    · have e1 : keys (e :: put d k v) = e.1 :: keys (put d k v) := rfl
      have e2 : keys (e :: d) = e.1 :: keys d := rfl
      have h' : k ≠ e.1 := fun hk => h hk.symm
      rw [if_neg h, e1, ih, e2]
      by_cases hm : k ∈ keys d
      · rw [if_pos hm, if_pos (List.mem_cons_of_mem _ hm)]
      · rw [if_neg hm, if_neg (by simp [h', hm])]; rfl

theorem deepUpdate_leaf (t d : List (Str × Val L)) (k : Str) (x : L) :
    deepUpdate t ((k, .leaf x) :: d) = deepUpdate (put t k (.leaf x)) d := by rw [deepUpdate]

theorem deepUpdate_dict (t d e : List (Str × Val L)) (k : Str) :
    ∃ c, deepUpdate t ((k, .dict e) :: d) = deepUpdate (put t k (.dict c)) d ∧
      (∀ a, get? t k = some (.dict a) → c = deepUpdate a e) ∧
      ((∀ a, get? t k ≠ some (.dict a)) → c = e) := by
  rw [deepUpdate]
  cases ht : get? t k with
  | none => exact ⟨e, rfl, by simp, fun _ => rfl⟩
  | some w =>
    cases w with
    | leaf y => exact ⟨e, rfl, by simp, fun _ => rfl⟩
    | dict a =>
      refine ⟨_, rfl, ?_, fun h => absurd rfl (h a)⟩
      intro a' h
      rw [Val.dict.inj (Option.some.inj h)]

/-- What is found under one key after merging. -/
theorem get?_deepUpdate {u : List (Str × Val L)} (hu : IsDict u) (t : List (Str × Val L)) (k : Str) :
    (get? u k = none → get? (deepUpdate t u) k = get? t k) ∧
    (∀ x, get? u k = some (.leaf x) → get? (deepUpdate t u) k = some (.leaf x)) ∧
    (∀ b, get? u k = some (.dict b) →
      (∀ a, get? t k = some (.dict a) → get? (deepUpdate t u) k = some (.dict (deepUpdate a b))) ∧
      ((∀ a, get? t k ≠ some (.dict a)) → get? (deepUpdate t u) k = some (.dict b))) := by
  induction hu generalizing t with
  | nil => rw [deepUpdate]; simp [get?]
  | @leaf k0 x d hd hk ih =>
    rw [deepUpdate_leaf]
    by_cases h : k0 = k
    · subst h
      have := (ih (put t k0 (.leaf x))).1 (get?_eq_none.2 hk)
      rw [get?_put, if_pos rfl] at this
      simp [get?, this]
    · have := ih (put t k0 (.leaf x))
      rw [get?_put, if_neg h] at this
      simpa only [get?, if_neg h] using this
  | @dict k0 e d _ hd hk _ ih =>
    obtain ⟨c, h1, h2, h3⟩ := deepUpdate_dict t d e k0
    rw [h1]
    by_cases h : k0 = k
    · subst h
      have := (ih (put t k0 (.dict c))).1 (get?_eq_none.2 hk)
      rw [get?_put, if_pos rfl] at this
      rw [this]
      simp only [get?, if_true, reduceCtorEq, false_implies, implies_true, true_and, Option.some.injEq,
        Val.dict.injEq]
      rintro b rfl
      exact ⟨h2, h3⟩
    · have := ih (put t k0 (.dict c))
      rw [get?_put, if_neg h] at this
      simpa only [get?, if_neg h] using this

theorem IsDict.sub {u : List (Str × Val L)} (hu : IsDict u) {k : Str} {e : List (Str × Val L)}
    (h : get? u k = some (.dict e)) : IsDict e := by
  induction hu with
  | nil => simp [get?] at h
  | leaf _ _ ih =>
    unfold get? at h
    split_ifs at h
    · simp at h
    · exact ih h
  | dict h1 _ _ _ ih =>
    unfold get? at h
    split_ifs at h
    · simp only [Option.some.injEq, Val.dict.injEq] at h
      exact h ▸ h1
    · exact ih h

/-- **C79, values.** Merging `u` into `t`: a value given by `u` is taken over; what lies below such a
value disappears; a path that `u` does not mention keeps what `t` has there; where `u` has a
dictionary the result has one, merged with the one of `t` if it has one there. -/
theorem C79_merge_values (t u : List (Str × Val L)) (hu : IsDict u) (p : List Str) :
    (∀ x, at? (.dict u) p = some (.leaf x) → at? (.dict (bada3Aircraft t u)) p = some (.leaf x)) ∧
    (∀ q x, q ≠ [] → at? (.dict u) p = some (.leaf x) → at? (.dict (bada3Aircraft t u)) (p ++ q) = none) ∧
    ((∀ q x, q <+: p → at? (.dict u) q ≠ some (.leaf x)) → at? (.dict u) p = none →
      at? (.dict (bada3Aircraft t u)) p = at? (.dict t) p) ∧
    (∀ b, at? (.dict u) p = some (.dict b) →
      (∀ a, at? (.dict t) p = some (.dict a) →
        at? (.dict (bada3Aircraft t u)) p = some (.dict (bada3Aircraft a b))) ∧
      ((∀ a, at? (.dict t) p ≠ some (.dict a)) → at? (.dict (bada3Aircraft t u)) p = some (.dict b))) := by
  unfold bada3Aircraft
  induction p generalizing t u with
  | nil => simp [at?]
  | cons k p ih =>
    have key := get?_deepUpdate hu t k
    cases hk : get? u k with
    | none =>
      simp only [at?, hk, key.1 hk, Option.bind_none, reduceCtorEq, false_implies, implies_true,
        List.cons_append, and_true]
    | some v =>
      cases v with
      | leaf y =>
        have key' := key.2.1 y hk
        simp only [at?, hk, key', Option.bind_some, List.cons_append]
        cases p with
        | nil =>
          simp only [at?]
          refine ⟨fun x h => h, ?_, by simp, by simp⟩
          intro q x hq _
          cases q with
          | nil => exact absurd rfl hq
          | cons a q => simp [at?]
        | cons k' p =>
          simp only [at?, reduceCtorEq, false_implies, implies_true, and_true, true_and, Option.bind_some]
          intro h _
          exact absurd (by simp [at?, hk]) (h [k] y ⟨k' :: p, rfl⟩)
      | dict b =>
        have hb := hu.sub hk
        have hpre : (∀ q x, q <+: k :: p → at? (.dict u) q ≠ some (.leaf x)) →
            ∀ q x, q <+: p → at? (.dict b) q ≠ some (.leaf x) := by
          intro h q x hq
          have := h (k :: q) x (List.cons_prefix_cons.2 ⟨rfl, hq⟩)
          simpa [at?, hk] using this
        have hother := (key.2.2 b hk).2
        cases ht : get? t k with
        | none =>
          have key' := hother (by rw [ht]; simp)
          simp only [at?, hk, key', ht, Option.bind_some, Option.bind_none, List.cons_append, reduceCtorEq,
            false_implies, implies_true, ne_eq, not_false_eq_true, true_implies, true_and]
          refine ⟨fun x h => h, ?_, fun _ h => h, fun b h => h⟩
          exact fun q x hq h => at_below h hq
        | some w =>
          cases w with
          | leaf y =>
            have key' := hother (by rw [ht]; simp)
            simp only [at?, hk, key', ht, Option.bind_some, List.cons_append]
            refine ⟨fun x h => h, fun q x hq h => at_below h hq, ?_, ?_⟩
            · intro _ h
              rw [h]
              cases p with
              | nil => simp [at?] at h
              | cons k' p => rfl
            · intro b' h
              refine ⟨?_, fun _ => h⟩
              intro a ha
              cases p with
              | nil => simp [at?] at ha
              | cons k' p => simp [at?] at ha
          | dict a =>
            have key' : get? (deepUpdate t u) k = some (.dict (deepUpdate a b)) := (key.2.2 b hk).1 a ht
            obtain ⟨i1, i2, i3, i4⟩ := ih a b hb
            have e1 : ∀ r, at? (.dict u) (k :: r) = at? (.dict b) r := by intro r; simp [at?, hk]
            have e2 : ∀ r, at? (.dict t) (k :: r) = at? (.dict a) r := by intro r; simp [at?, ht]
            have e3 : ∀ r, at? (.dict (deepUpdate t u)) (k :: r) = at? (.dict (deepUpdate a b)) r := by
              intro r; simp [at?, key']
            simp only [List.cons_append, e1, e2, e3]
            exact ⟨i1, i2, fun h => i3 (hpre h), i4⟩
where
  at_below {v : Val L} {r q : List Str} {x : L} (h : at? v r = some (.leaf x)) (hq : q ≠ []) :
      at? v (r ++ q) = none := by
    induction r generalizing v with
    | nil =>
      simp only [at?, Option.some.injEq] at h
      subst h
      cases q with
      | nil => exact absurd rfl hq
      | cons a q => rfl
    | cons k r ih =>
      cases v with
      | leaf y => simp [at?] at h
      | dict d =>
        simp only [at?, List.cons_append] at h ⊢
        cases hd : get? d k with
        | none => rfl
        | some w =>
          rw [hd] at h
          exact ih h

/-- **C79, order.** The keys of the aircraft record keep their order; new keys follow in the order of
the BADA3 record. -/
theorem C79_merge_keys (t u : List (Str × Val L)) (hu : IsDict u) :
    keys (bada3Aircraft t u) = keys t ++ (keys u).filter fun k => decide (k ∉ keys t) := by
  unfold bada3Aircraft
  have step : ∀ (t : List (Str × Val L)) (k : Str) (v : Val L) (d : List (Str × Val L)), k ∉ keys d →
      keys (put t k v) ++ (keys d).filter (fun k' => decide (k' ∉ keys (put t k v))) =
      keys t ++ (k :: keys d).filter (fun k' => decide (k' ∉ keys t)) := by
    intro t k v d hk
    rw [keys_put]
    by_cases h : k ∈ keys t
    · rw [if_pos h, List.filter_cons_of_neg (by simpa using h)]
    · rw [if_neg h, List.filter_cons_of_pos (by simpa using h), List.append_assoc]
      congr 1
      rw [List.singleton_append]
      congr 1
      apply List.filter_congr
      intro k' hk'
      have : k' ≠ k := fun e => hk (e ▸ hk')
      simp [this]
  induction hu generalizing t with
  | nil => rw [deepUpdate]; simp [keys]
  | leaf hd hk ih =>
    rw [deepUpdate_leaf, ih, step _ _ _ _ hk]; rfl
  | @dict k e d _ hd hk _ ih =>
    obtain ⟨c, h1, -, -⟩ := deepUpdate_dict t d e k
    rw [h1, ih, step _ _ _ _ hk]; rfl

/-- A dictionary that already has everything another one says is not changed by it. -/
theorem absorb {u : List (Str × Val L)} (hu : IsDict u) (t : List (Str × Val L))
    (h1 : ∀ k x, get? u k = some (.leaf x) → get? t k = some (.leaf x))
    (h2 : ∀ k b, get? u k = some (.dict b) → ∃ c, get? t k = some (.dict c) ∧ deepUpdate c b = c) :
    deepUpdate t u = t := by
  have tail : ∀ {k : Str} {v w : Val L} {d : List (Str × Val L)}, k ∉ keys d → ∀ {k'}, get? d k' = some w →
      get? ((k, v) :: d) k' = some w := by
    intro k v w d hk k' h
    have : k ≠ k' := by
      intro e
      rw [← e, get?_eq_none.2 hk] at h
      simp at h
    simp [get?, this, h]
  induction hu with
  | nil => rw [deepUpdate]
  | @leaf k x d hd hk ih =>
    rw [deepUpdate_leaf, put_self (h1 k x (by simp [get?]))]
    exact ih (fun k' y h => h1 k' y (tail hk h)) (fun k' b h => h2 k' b (tail hk h))
  | @dict k e d he hd hk _ ih =>
    obtain ⟨c, hc1, hc2⟩ := h2 k e (by simp [get?])
    obtain ⟨c', h3, h4, -⟩ := deepUpdate_dict t d e k
    rw [h3, h4 c hc1, hc2, put_self hc1]
    exact ih (fun k' y h => h1 k' y (tail hk h)) (fun k' b h => h2 k' b (tail hk h))

/-- Both idempotence statements for a dictionary, from those for the dictionaries inside. -/
theorem idem_of_sub {u : List (Str × Val L)} (hu : IsDict u)
    (hs : ∀ k e, get? u k = some (.dict e) → deepUpdate e e = e ∧
      ∀ t, deepUpdate (deepUpdate t e) e = deepUpdate t e) :
    deepUpdate u u = u ∧ ∀ t, deepUpdate (deepUpdate t u) u = deepUpdate t u := by
  refine ⟨absorb hu u (fun _ _ h => h) fun k b h => ⟨b, h, (hs k b h).1⟩, fun t => ?_⟩
  refine absorb hu _ ?_ ?_
  · exact fun k x h => (get?_deepUpdate hu t k).2.1 x h
  · intro k b h
    by_cases ht : ∃ a, get? t k = some (.dict a)
    · obtain ⟨a, ha⟩ := ht
      exact ⟨_, ((get?_deepUpdate hu t k).2.2 b h).1 a ha, (hs k b h).2 a⟩
    · exact ⟨b, ((get?_deepUpdate hu t k).2.2 b h).2 (fun a ha => ht ⟨a, ha⟩), (hs k b h).1⟩

/-- **C79, idempotence.** Merging the same data a second time changes nothing. -/
theorem C79_merge_idempotent (t u : List (Str × Val L)) (hu : IsDict u) :
    bada3Aircraft (bada3Aircraft t u) u = bada3Aircraft t u := by
  unfold bada3Aircraft
  have : ∀ k e, get? u k = some (.dict e) → deepUpdate e e = e ∧
      ∀ t, deepUpdate (deepUpdate t e) e = deepUpdate t e := by
    induction hu with
    | nil => simp [get?]
    | leaf _ _ ih =>
      intro k' e' h
      unfold get? at h
      split_ifs at h
      · simp at h
      · exact ih k' e' h
    | dict he _ _ ih1 ih2 =>
      intro k' e' h
      unfold get? at h
      split_ifs at h
      · simp only [Option.some.injEq, Val.dict.injEq] at h
        subst h
        exact idem_of_sub he ih1
      · exact ih2 k' e' h
  exact (idem_of_sub hu this).2 t

/-- `{"wing": {"area": 1, "sweep": 2}, "mtow": 3}` with `{"wing": {"area": 7}, "Ct": 8}`: the area is
replaced, the sweep kept, the thrust coefficients added. -/
example : bada3Aircraft [([119], .dict [([97], .leaf 1), ([115], .leaf 2)]), ([109], .leaf 3)]
    [([119], .dict [([97], .leaf 7)]), ([67], .leaf 8)] =
    [([119], .dict [([97], .leaf 7), ([115], .leaf 2)]), ([109], .leaf 3), ([67], .leaf 8)] := by
  simp [bada3Aircraft, deepUpdate, get?, put]

/-- Its BADA3 record meets the hypothesis. -/
example : IsDict [([119], .dict [([97], .leaf 7)]), ([67], (.leaf 8 : Val ℕ))] :=
  .dict (.leaf .nil (by simp [keys])) (.leaf .nil (by simp [keys])) (by simp [keys])

end Verif.Props
