import Verif.Model.Cache
import Mathlib.Data.Finset.Card
import Mathlib.Data.List.Nodup
import Mathlib.Data.Finset.Dedup

namespace Verif.Cache
open Verif.Tables Verif.Registry
variable {ρ : Type}

/-- Cached addresses are valid. -/
def Ok (s : State ρ) : Prop := ∀ e ∈ s.cache, e.2 < s.heap.length

theorem lookup_mem {β : Type} {k : Str} {l : List (Str × β)} {v : β} (h : lookup k l = some v) :
    (k, v) ∈ l := by
  induction l with
  | nil => simp [lookup] at h
  | cons e l ih =>
    obtain ⟨k', v'⟩ := e
    simp only [lookup] at h
    split_ifs at h with hk
    · simp only [Option.some.injEq] at h
      subst hk h
      simp
    · exact List.mem_cons_of_mem _ (ih h)

theorem lookup_append {β : Type} {k : Str} {l r : List (Str × β)} {v : β}
    (hl : ∀ e ∈ l, e.1 ≠ k) : lookup k (l ++ (k, v) :: r) = some v := by
  induction l with
  | nil => simp [lookup]
  | cons e l ih =>
    obtain ⟨k', v'⟩ := e
    have h1 : k' ≠ k := hl (k', v') (by simp)
    simp only [List.cons_append, lookup, if_neg h1]
    exact ih fun e he => hl e (by simp [he])

theorem call_ok (f : Str → Except PyError ρ) {s : State ρ} (hs : Ok s) (q : Str) :
    Ok (call f s q).2 ∧ s.heap.length ≤ (call f s q).2.heap.length ∧
    (∀ a, a < s.heap.length → read (call f s q).2 a = read s a) ∧
    (∀ a, (call f s q).1 = .ok a → a < (call f s q).2.heap.length ∧
      ∃ t, (call f s q).2.cache = (q, a) :: t) := by
  unfold call
  cases h : lookup q s.cache with
  | some a =>
    refine ⟨?_, le_refl _, fun _ _ => rfl, ?_⟩
    · intro e he
      rcases List.mem_cons.1 he with rfl | he
      · exact hs _ (lookup_mem h)
      · exact hs _ (List.mem_of_mem_filter he)
    · intro b hb
      simp only [Except.ok.injEq] at hb
      subst hb
      exact ⟨hs _ (lookup_mem h), _, rfl⟩
  | none =>
    cases hf : f q with
    | error e => exact ⟨hs, le_refl _, fun _ _ => rfl, fun a ha => by simp at ha⟩
    | ok r =>
      refine ⟨?_, by simp, ?_, ?_⟩
      · intro e he
        have he := List.mem_of_mem_take he
        simp only [List.length_append, List.length_singleton]
        rcases List.mem_cons.1 he with rfl | he
        · simp
        · have := hs _ he; omega
      · intro a ha
        simp [read, List.getElem?_append_left ha]
      · intro a ha
        simp only [Except.ok.injEq] at ha
        subst ha
        exact ⟨by simp, _, by rw [List.take_succ_cons]⟩

theorem write_ok {s : State ρ} (hs : Ok s) (a : ℕ) (g : ρ → ρ) :
    Ok (write s a g) ∧ (write s a g).heap.length = s.heap.length := by
  refine ⟨?_, by simp [write]⟩
  intro e he
  simpa [write] using hs e he

theorem run_ok (f : Str → Except PyError ρ) (ops : List (Op ρ)) {s : State ρ} (hs : Ok s) :
    Ok (run f s ops) ∧ s.heap.length ≤ (run f s ops).heap.length := by
  induction ops generalizing s with
  | nil => exact ⟨hs, le_refl _⟩
  | cons o ops ih =>
    have h1 : Ok (step f s o) ∧ s.heap.length ≤ (step f s o).heap.length := by
      cases o with
      | call q => exact ⟨(call_ok f hs q).1, (call_ok f hs q).2.1⟩
      | write a g => exact ⟨(write_ok hs a g).1, (write_ok hs a g).2.ge⟩
    have := ih h1.1
    exact ⟨this.1, h1.2.trans this.2⟩

/-- `q` is cached at `a` behind at most the requests `K`. -/
def Held (s : State ρ) (q : Str) (a : ℕ) (K : Finset Str) : Prop :=
  ∃ pre post, s.cache = pre ++ (q, a) :: post ∧ (pre.map (·.1)).Nodup ∧
    ∀ e ∈ pre, e.1 ∈ K ∧ e.1 ≠ q

theorem Held.length {s : State ρ} {q : Str} {a : ℕ} {K : Finset Str} {pre : List (Str × ℕ)}
    (hn : (pre.map (·.1)).Nodup) (hK : ∀ e ∈ pre, e.1 ∈ K) : pre.length ≤ K.card := by
  have : (pre.map (·.1)).toFinset ⊆ K := by
    intro x hx
    obtain ⟨e, he, rfl⟩ := List.mem_map.1 (List.mem_toFinset.1 hx)
    exact hK e he
  have := Finset.card_le_card this
  rw [List.toFinset_card_of_nodup hn] at this
  simpa using this

theorem Held.lookup {s : State ρ} {q : Str} {a : ℕ} {K : Finset Str} (h : Held s q a K) :
    Registry.lookup q s.cache = some a := by
  obtain ⟨pre, post, h1, -, h3⟩ := h
  rw [h1]
  exact lookup_append fun e he => (h3 e he).2

theorem Held.call {f : Str → Except PyError ρ} {s : State ρ} {q : Str} {a : ℕ} {K : Finset Str}
    (h : Held s q a K) (hc : K.card < 128) (k : Str) (hk : k = q ∨ k ∈ K) :
    Held (Cache.call f s k).2 q a K := by
  by_cases hkq : k = q
  · subst hkq
    unfold Cache.call
    rw [h.lookup]
    exact ⟨[], _, rfl, by simp, by simp⟩
  have hkK : k ∈ K := hk.resolve_left hkq
  obtain ⟨pre, post, h1, h2, h3⟩ := h
  unfold Cache.call
  cases hl : Registry.lookup k s.cache with
  | some b =>
    refine ⟨(k, b) :: pre.filter (fun e => e.1 != k), post.filter (fun e => e.1 != k), ?_, ?_, ?_⟩
    · simp only [h1, List.filter_append, List.cons_append]
      rw [List.filter_cons_of_pos (by simpa using fun h => hkq h.symm)]
    · rw [List.map_cons, List.nodup_cons]
      refine ⟨?_, ?_⟩
      · intro hm
        obtain ⟨e, he, he1⟩ := List.mem_map.1 hm
        simpa [he1] using (List.mem_filter.1 he).2
      · exact h2.sublist (List.filter_sublist.map _)
    · intro e he
      rcases List.mem_cons.1 he with rfl | he
      · exact ⟨hkK, hkq⟩
      · exact h3 e (List.mem_of_mem_filter he)
  | none =>
    cases hf : f k with
    | error e => exact ⟨pre, post, h1, h2, h3⟩
    | ok r =>
      have hnot : ∀ e ∈ pre, e.1 ≠ k := by
        intro e he hek
        have : Registry.lookup k s.cache ≠ none := by
          have hm : e ∈ s.cache := by rw [h1]; simp [he]
          clear hl h1
          revert hm
          generalize s.cache = c
          intro hm
          induction c with
          | nil => simp at hm
          | cons x c ih =>
            obtain ⟨x1, x2⟩ := x
            simp only [Registry.lookup]
            split_ifs with hx
            · simp
            · rcases List.mem_cons.1 hm with rfl | hm
              · exact absurd hek hx
              · exact ih hm
        exact this hl
      have hlen : (pre.length + 1) ≤ K.card := by
        have hn : (((k, s.heap.length) :: pre).map (·.1)).Nodup := by
          rw [List.map_cons, List.nodup_cons]
          refine ⟨?_, h2⟩
          intro hm
          obtain ⟨e, he, he1⟩ := List.mem_map.1 hm
          exact hnot e he he1
        refine Held.length (s := s) (q := q) (a := a) hn ?_
        intro e he
        rcases List.mem_cons.1 he with rfl | he
        · exact hkK
        · exact (h3 e he).1
      refine ⟨(k, s.heap.length) :: pre, post.take (126 - pre.length), ?_, ?_, ?_⟩
      · simp only [h1]
        rw [← List.cons_append, List.take_append, List.take_of_length_le
          (by simp; omega)]
        congr 1
        rw [show 128 - ((k, s.heap.length) :: pre).length = (126 - pre.length) + 1 by
          simp; omega, List.take_succ_cons]
      · rw [List.map_cons, List.nodup_cons]
        refine ⟨?_, h2⟩
        intro hm
        obtain ⟨e, he, he1⟩ := List.mem_map.1 hm
        exact hnot e he he1
      · intro e he
        rcases List.mem_cons.1 he with rfl | he
        · exact ⟨hkK, hkq⟩
        · exact h3 e he

theorem Held.run {f : Str → Except PyError ρ} {q : Str} {a : ℕ} {K : Finset Str}
    (hc : K.card < 128) (ops : List (Op ρ)) (hops : ∀ k, Op.call k ∈ ops → k = q ∨ k ∈ K)
    {s : State ρ} (h : Held s q a K) : Held (Cache.run f s ops) q a K := by
  induction ops generalizing s with
  | nil => exact h
  | cons o ops ih =>
    refine ih (fun k hk => hops k (by simp [hk])) ?_
    cases o with
    | call k => exact h.call hc k (hops k (by simp))
    | write b g => exact h

/-- Operations that do not write to `a` leave the record there alone. -/
theorem run_read (f : Str → Except PyError ρ) (a : ℕ) (ops : List (Op ρ))
    (hops : ∀ g, Op.write a g ∉ ops) {s : State ρ} (hs : Ok s) (ha : a < s.heap.length) :
    read (run f s ops) a = read s a := by
  induction ops generalizing s with
  | nil => rfl
  | cons o ops ih =>
    have h2 : ∀ g, Op.write a g ∉ ops := fun g hg => hops g (by simp [hg])
    cases o with
    | call k =>
      have h := call_ok f hs k
      have := ih h2 h.1 (lt_of_lt_of_le ha h.2.1)
      exact this.trans (h.2.2.1 a ha)
    | write b g =>
      have h := write_ok hs b g
      have := ih h2 h.1 (by rw [h.2]; exact ha)
      refine this.trans ?_
      have hb : b ≠ a := by
        rintro rfl
        exact hops g (by simp)
      simp [read, write, List.getElem?_modify, hb]

/-- The cache never holds more than 128 records. -/
theorem run_length (f : Str → Except PyError ρ) (ops : List (Op ρ)) {s : State ρ}
    (hs : s.cache.length ≤ 128) : (run f s ops).cache.length ≤ 128 := by
  induction ops generalizing s with
  | nil => exact hs
  | cons o ops ih =>
    refine ih ?_
    cases o with
    | write b g => exact hs
    | call k =>
      simp only [step, call]
      cases hl : lookup k s.cache with
      | some b =>
        have : (s.cache.filter fun e => e.1 != k).length < s.cache.length := by
          refine List.length_filter_lt_length_iff_exists.2 ⟨(k, b), lookup_mem hl, by simp⟩
        simp only [List.length_cons]
        omega
      | none =>
        cases hf : f k with
        | error e => exact hs
        | ok r => simp only [List.length_take]; exact min_le_left _ _

/-- Wherever `q` is cached, the requests `K` are in front of it. -/
def Behind (s : State ρ) (q : Str) (K : Finset Str) : Prop :=
  ∀ pre a post, s.cache = pre ++ (q, a) :: post → ∀ k ∈ K, ∃ e ∈ pre, e.1 = k

theorem Behind.call {f : Str → Except PyError ρ} {s : State ρ} {q : Str} {K : Finset Str}
    (h : Behind s q K) (k : Str) (hk : k ≠ q) :
    Behind (Cache.call f s k).2 q K ∧
      ((∃ r, f k = .ok r) → Behind (Cache.call f s k).2 q (insert k K)) := by
  unfold Cache.call
  cases hl : lookup k s.cache with
  | some b =>
    have key : Behind (⟨s.heap, (k, b) :: s.cache.filter (fun e => e.1 != k)⟩ : State ρ) q
        (insert k K) := by
      intro pre a post he
      simp only at he
      rcases pre with _ | ⟨e0, pre⟩
      · simp only [List.nil_append, List.cons.injEq, Prod.mk.injEq] at he
        exact absurd he.1.1 hk
      · simp only [List.cons_append, List.cons.injEq] at he
        obtain ⟨rfl, he⟩ := he
        obtain ⟨l1, l2, e1, e2, e3⟩ := List.filter_eq_append_iff.1 he
        obtain ⟨m1, m2, e4, e5, -, -⟩ := List.filter_eq_cons_iff.1 e3
        intro k' hk'
        rcases Finset.mem_insert.1 hk' with rfl | hk'
        · exact ⟨_, List.mem_cons_self, rfl⟩
        by_cases hkk : k' = k
        · exact ⟨_, List.mem_cons_self, hkk.symm⟩
        obtain ⟨e, hm, he'⟩ := h (l1 ++ m1) a m2 (by rw [e1, e4]; simp) k' hk'
        refine ⟨e, List.mem_cons_of_mem _ ?_, he'⟩
        rcases List.mem_append.1 hm with hm | hm
        · rw [← e2]
          exact List.mem_filter.2 ⟨hm, by simp [he', hkk]⟩
        · have := e5 e hm
          simp only [bne_iff_ne, ne_eq, Decidable.not_not] at this
          exact absurd (he'.symm.trans this) hkk
    exact ⟨fun pre a post he k' hk' => key pre a post he k' (Finset.mem_insert_of_mem hk'),
      fun _ => key⟩
  | none =>
    cases hf : f k with
    | error e => exact ⟨h, fun ⟨r, hr⟩ => by simp at hr⟩
    | ok r =>
      have key : Behind (⟨s.heap ++ [r], ((k, s.heap.length) :: s.cache).take 128⟩ : State ρ) q
          (insert k K) := by
        intro pre a post he
        simp only [List.take_succ_cons] at he
        rcases pre with _ | ⟨e0, pre⟩
        · simp only [List.nil_append, List.cons.injEq, Prod.mk.injEq] at he
          exact absurd he.1.1 hk
        · simp only [List.cons_append, List.cons.injEq] at he
          obtain ⟨rfl, he⟩ := he
          intro k' hk'
          rcases Finset.mem_insert.1 hk' with rfl | hk'
          · exact ⟨_, List.mem_cons_self, rfl⟩
          obtain ⟨e, hm, he'⟩ := h pre a (post ++ s.cache.drop 127)
            (by
              conv_lhs => rw [← List.take_append_drop 127 s.cache, he]
              simp) k' hk'
          exact ⟨e, List.mem_cons_of_mem _ hm, he'⟩
      exact ⟨fun pre a post he k' hk' => key pre a post he k' (Finset.mem_insert_of_mem hk'),
        fun _ => key⟩

theorem Behind.run {f : Str → Except PyError ρ} {q : Str} (ops : List (Op ρ))
    (hq : Op.call q ∉ ops) (L : Finset Str)
    (hL : ∀ k ∈ L, Op.call k ∈ ops ∧ ∃ r, f k = .ok r) {s : State ρ} {K : Finset Str}
    (h : Behind s q K) : Behind (Cache.run f s ops) q (K ∪ L) := by
  induction ops generalizing s K L with
  | nil =>
    have : L = ∅ := Finset.eq_empty_of_forall_notMem fun k hk => by simpa using (hL k hk).1
    subst this
    simpa [Cache.run] using h
  | cons o ops ih =>
    have hq' : Op.call q ∉ ops := fun hm => hq (by simp [hm])
    cases o with
    | write b g =>
      refine ih hq' L (fun k hk => ⟨?_, (hL k hk).2⟩) (s := write s b g) h
      have := (hL k hk).1
      simpa using this
    | call k =>
      have hkq : k ≠ q := by rintro rfl; exact hq (by simp)
      have hc := h.call (f := f) k hkq
      by_cases hkL : k ∈ L
      · have h1 := hc.2 (hL k hkL).2
        have h2 := ih hq' (L.erase k) (fun k' hk' => by
          have hm := Finset.mem_erase.1 hk'
          refine ⟨?_, (hL k' hm.2).2⟩
          have := (hL k' hm.2).1
          simpa [hm.1] using this) h1
        have e : insert k K ∪ L.erase k = K ∪ L := by
          ext x
          simp only [Finset.mem_union, Finset.mem_insert, Finset.mem_erase]
          by_cases hx : x = k <;> simp [hx, hkL]
        rw [e] at h2
        exact h2
      · exact ih hq' L (fun k' hk' => by
          refine ⟨?_, (hL k' hk').2⟩
          have := (hL k' hk').1
          have hne : k' ≠ k := by rintro rfl; exact hkL hk'
          simpa [hne] using this) hc.1

theorem mem_of_lookup_ne_none {β : Type} {k : Str} {l : List (Str × β)} (h : lookup k l ≠ none) :
    ∃ v, (k, v) ∈ l := by
  cases hl : lookup k l with
  | none => exact absurd hl h
  | some v => exact ⟨v, lookup_mem hl⟩

/-- After 128 different other requests `q` is no longer cached. -/
theorem forgotten {f : Str → Except PyError ρ} {q : Str} (ops : List (Op ρ))
    (hq : Op.call q ∉ ops) (L : Finset Str) (hc : 128 ≤ L.card)
    (hL : ∀ k ∈ L, Op.call k ∈ ops ∧ ∃ r, f k = .ok r) {s : State ρ}
    (hs : s.cache.length ≤ 128) : lookup q (Cache.run f s ops).cache = none := by
  by_contra hne
  obtain ⟨a, ha⟩ := mem_of_lookup_ne_none hne
  obtain ⟨pre, post, he⟩ := List.append_of_mem ha
  have hb := Behind.run (f := f) ops hq L hL (s := s) (K := ∅) (by intro _ _ _ _ k hk; simp at hk)
  have hsub : L ⊆ (pre.map (·.1)).toFinset := by
    intro k hk
    obtain ⟨e, hm, rfl⟩ := hb pre a post he k (by simp [hk])
    exact List.mem_toFinset.2 (List.mem_map.2 ⟨e, hm, rfl⟩)
  have h1 := (Finset.card_le_card hsub).trans (List.toFinset_card_le _)
  have h2 := run_length f ops hs
  rw [he] at h2
  simp at h1 h2
  omega

end Verif.Cache
