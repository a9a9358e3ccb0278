import Verif.Model.Listing
import Verif.Spec.Listing
import Verif.Data.Shipped
import Mathlib.Data.Finset.Card
import Mathlib.Data.Finset.Dedup
import Mathlib.Data.List.Nodup

/-!
# C146: the listing functions hand out shared lists
-/

namespace Verif.Listing
open Verif.Tables Verif.Registry Verif.Spec

theorem find_mem {β : Type} {k : Key} {l : List (Key × β)} {v : β} (h : find k l = some v) :
    (k, v) ∈ l := by
  induction l with
  | nil => simp [find] at h
  | cons e l ih =>
    obtain ⟨k', v'⟩ := e
    simp only [find] at h
    split_ifs at h with hk
    · simp only [Option.some.injEq] at h
      subst hk h
      simp
    · exact List.mem_cons_of_mem _ (ih h)

theorem find_none {β : Type} {k : Key} {l : List (Key × β)} (h : find k l = none) :
    ∀ e ∈ l, e.1 ≠ k := by
  induction l with
  | nil => simp
  | cons e l ih =>
    obtain ⟨k', v'⟩ := e
    simp only [find] at h
    split_ifs at h with hk
    intro e he
    rcases List.mem_cons.1 he with rfl | he
    · exact hk
    · exact ih h e he

theorem find_append {β : Type} {k : Key} {l r : List (Key × β)} {v : β}
    (hl : ∀ e ∈ l, e.1 ≠ k) : find k (l ++ (k, v) :: r) = some v := by
  induction l with
  | nil => simp [find]
  | cons e l ih =>
    obtain ⟨k', v'⟩ := e
    have h1 : k' ≠ k := hl (k', v') (by simp)
    simp only [List.cons_append, find, if_neg h1]
    exact ih fun e he => hl e (by simp [he])

/-- Calls with equal keys have equal results. -/
theorem value_key (db : DB) (fn : Fn) {c c' : Call} (h : key c = key c') :
    value db fn c = value db fn c' := by
  have t : ∀ (b : Bool) (n : ℤ), ofBool b = n → truthy (.bool b) = truthy (.int n) := by
    rintro (_ | _) n rfl <;> rfl
  have t' : ∀ (b b' : Bool), ofBool b = ofBool b' → b = b' := by decide
  rcases c with _ | (s | n | b) | (s | n | b) <;> rcases c' with _ | (s' | n' | b') | (s' | n' | b') <;>
    simp only [key, Key.plainStr.injEq, Key.plainInt.injEq, Key.seqNum.injEq, Key.kwStr.injEq,
      Key.kwNum.injEq, reduceCtorEq] at h <;>
    first
      | rfl
      | (subst h; rfl)
      | (rw [t' _ _ h])
      | (cases fn <;> simp only [value, body, t _ _ h])
      | (cases fn <;> simp only [value, body, t _ _ h.symm])

/-- What every reachable state satisfies; `W` are the addresses that were written to. -/
structure Inv (db : DB) (W : ℕ → Prop) (s : State) : Prop where
  entry : ∀ fn k o, (k, o) ∈ s.caches fn → ∃ c, key c = k ∧ ∃ v, value db fn c = .ok v ∧
    match v, o with
    | none, none => True
    | some l, some a => a < s.heap.length ∧ (¬ W a → s.heap[a]? = some l)
    | _, _ => False
  own : ∀ fn fn' k k' a, (k, some a) ∈ s.caches fn → (k', some a) ∈ s.caches fn' → fn = fn' ∧ k = k'
  short : ∀ fn, (s.caches fn).length ≤ 128

theorem Inv.init (db : DB) (W : ℕ → Prop) : Inv db W State.init :=
  ⟨by simp [State.init], by simp [State.init], by simp [State.init]⟩

theorem Inv.weaken {db : DB} {W W' : ℕ → Prop} {s : State} (h : Inv db W s)
    (hW : ∀ a, W a → W' a) : Inv db W' s := by
  refine ⟨fun fn k o hm => ?_, h.own, h.short⟩
  obtain ⟨c, hc, v, hv, hm⟩ := h.entry fn k o hm
  refine ⟨c, hc, v, hv, ?_⟩
  rcases v with _ | l <;> rcases o with _ | a
  · trivial
  · exact hm
  · exact hm
  · exact ⟨hm.1, fun n => hm.2 fun w => n (hW a w)⟩

theorem Inv.lt {db : DB} {W : ℕ → Prop} {s : State} (h : Inv db W s) {fn : Fn} {k : Key} {a : ℕ}
    (hm : (k, some a) ∈ s.caches fn) : a < s.heap.length := by
  obtain ⟨c, -, v, -, hm⟩ := h.entry fn k _ hm
  rcases v with _ | l
  · exact hm.elim
  · exact hm.1

/-- A membership in the caches after one cache was replaced. -/
theorem mem_setCache {s : State} {fn fn' : Fn} {l : List (Key × Option ℕ)} {e : Key × Option ℕ}
    (h : e ∈ setCache s fn l fn') : (fn' = fn ∧ e ∈ l) ∨ (fn' ≠ fn ∧ e ∈ s.caches fn') := by
  unfold setCache at h
  split_ifs at h with hf
  · exact .inl ⟨hf, h⟩
  · exact .inr ⟨hf, h⟩

/-- One call: what it returns and what it leaves behind. -/
theorem Inv.call {db : DB} {W : ℕ → Prop} {s : State} (h : Inv db W s)
    (fn : Fn) (c : Call) :
    Inv db W (Listing.call db s fn c).2 ∧ s.heap.length ≤ (Listing.call db s fn c).2.heap.length ∧
    (∀ a, a < s.heap.length → read (Listing.call db s fn c).2 a = read s a) ∧
    match value db fn c with
    | .error e => (Listing.call db s fn c).1 = .error e
    | .ok none => (Listing.call db s fn c).1 = .ok none
    | .ok (some l) => ∃ a t, (Listing.call db s fn c).1 = .ok (some a) ∧
        (Listing.call db s fn c).2.caches fn = (key c, some a) :: t ∧
        a < (Listing.call db s fn c).2.heap.length ∧
        (¬ W a → read (Listing.call db s fn c).2 a = some l) := by
  unfold Listing.call
  cases hf : find (key c) (s.caches fn) with
  | some o =>
    have hm := find_mem hf
    obtain ⟨c', hc', v, hv, ho⟩ := h.entry fn _ _ hm
    rw [value_key db fn hc'] at hv
    have sub : ∀ fn' e, e ∈ setCache s fn ((key c, o) :: (s.caches fn).filter
        (fun e => e.1 != key c)) fn' → e ∈ s.caches fn' := by
      intro fn' e he
      rcases mem_setCache he with ⟨rfl, he⟩ | ⟨-, he⟩
      · rcases List.mem_cons.1 he with rfl | he
        · exact hm
        · exact List.mem_of_mem_filter he
      · exact he
    refine ⟨⟨fun fn' k o' hm' => h.entry fn' k o' (sub _ _ hm'),
      fun f1 f2 k k' a h1 h2 => h.own f1 f2 k k' a (sub _ _ h1) (sub _ _ h2), ?_⟩, le_refl _,
      fun _ _ => rfl, ?_⟩
    · intro fn'
      simp only [setCache]
      split_ifs with e
      · have : ((s.caches fn).filter fun e => e.1 != key c).length < (s.caches fn).length :=
          List.length_filter_lt_length_iff_exists.2 ⟨_, hm, by simp⟩
        have := h.short fn
        simp only [List.length_cons]
        omega
      · exact h.short fn'
    · rw [hv]
      rcases v with _ | l <;> rcases o with _ | a
      · rfl
      · exact ho.elim
      · exact ho.elim
      · exact ⟨a, _, rfl, if_pos rfl, ho.1, ho.2⟩
  | none =>
    cases hv : value db fn c with
    | error e => exact ⟨h, le_refl _, fun _ _ => rfl, rfl⟩
    | ok v =>
      have sub : ∀ fn' e o, e ∈ setCache s fn (((key c, o) :: s.caches fn).take 128) fn' →
          (fn' = fn ∧ e = (key c, o)) ∨ e ∈ s.caches fn' := by
        intro fn' e o he
        rcases mem_setCache he with ⟨rfl, he⟩ | ⟨-, he⟩
        · rcases List.mem_cons.1 (List.mem_of_mem_take he) with rfl | he
          · exact .inl ⟨rfl, rfl⟩
          · exact .inr he
        · exact .inr he
      have short : ∀ o fn', (setCache s fn (((key c, o) :: s.caches fn).take 128) fn').length ≤ 128 := by
        intro o fn'
        simp only [setCache]
        split_ifs with e
        · simp only [List.length_take]
          exact min_le_left _ _
        · exact h.short fn'
      rcases v with _ | l
      · refine ⟨⟨?_, ?_, short _⟩, le_refl _, fun _ _ => rfl, rfl⟩
        · intro fn' k o hm
          rcases sub _ _ _ hm with ⟨rfl, e⟩ | hm
          · cases e
            exact ⟨c, rfl, none, hv, trivial⟩
          · exact h.entry fn' k o hm
        · intro f1 f2 k k' a h1 h2
          rcases sub _ _ _ h1 with ⟨rfl, e⟩ | h1
          · cases e
          rcases sub _ _ _ h2 with ⟨rfl, e⟩ | h2
          · cases e
          exact h.own f1 f2 k k' a h1 h2
      · refine ⟨⟨?_, ?_, short _⟩, by simp, ?_, ?_⟩
        · intro fn' k o hm
          rcases sub _ _ _ hm with ⟨rfl, e⟩ | hm
          · cases e
            exact ⟨c, rfl, some l, hv, by simp⟩
          · obtain ⟨c', hc', v, hv', hm⟩ := h.entry fn' k o hm
            refine ⟨c', hc', v, hv', ?_⟩
            rcases v with _ | l' <;> rcases o with _ | a
            · trivial
            · exact hm
            · exact hm
            · refine ⟨by simp only [List.length_append]; omega, fun n => ?_⟩
              rw [List.getElem?_append_left hm.1]
              exact hm.2 n
        · intro f1 f2 k k' a h1 h2
          rcases sub _ _ _ h1 with ⟨rfl, e1⟩ | h1' <;> rcases sub _ _ _ h2 with ⟨rfl, e2⟩ | h2'
          · cases e1
            cases e2
            exact ⟨rfl, rfl⟩
          · cases e1
            exact absurd (h.lt h2') (lt_irrefl _)
          · cases e2
            exact absurd (h.lt h1') (lt_irrefl _)
          · exact h.own f1 f2 k k' a h1' h2'
        · intro a ha
          simp [read, List.getElem?_append_left ha]
        · exact ⟨_, (s.caches fn).take 127, rfl, by simp [setCache, List.take_succ_cons], by simp,
            fun _ => by simp [read]⟩

theorem Inv.write {db : DB} {W : ℕ → Prop} {s : State} (h : Inv db W s) (a : ℕ)
    (g : List Str → List Str) : Inv db (fun b => W b ∨ b = a) (Listing.write s a g) := by
  refine ⟨fun fn k o hm => ?_, h.own, h.short⟩
  obtain ⟨c, hc, v, hv, hm⟩ := h.entry fn k o hm
  refine ⟨c, hc, v, hv, ?_⟩
  rcases v with _ | l <;> rcases o with _ | b
  · trivial
  · exact hm
  · exact hm
  · refine ⟨by simpa [Listing.write] using hm.1, fun n => ?_⟩
    have hb : a ≠ b := fun e => n (.inr e.symm)
    simpa [Listing.write, List.getElem?_modify, hb] using hm.2 fun w => n (.inl w)

/-- The invariant along a run, and what becomes of the list at an address. -/
theorem Inv.run {db : DB} (ops : List Op) {W : ℕ → Prop} {s : State} (h : Inv db W s) :
    Inv db (fun b => W b ∨ ∃ g, Op.write b g ∈ ops) (Listing.run db s ops) ∧
    s.heap.length ≤ (Listing.run db s ops).heap.length ∧
    ∀ a l, read s a = some l → read (Listing.run db s ops) a = some (replay a ops l) := by
  induction ops generalizing s W with
  | nil => exact ⟨h.weaken fun a => .inl, le_refl _, fun a l hl => hl⟩
  | cons o ops ih =>
    cases o with
    | call fn c =>
      obtain ⟨h1, h2, h3, -⟩ := h.call fn c
      obtain ⟨i1, i2, i3⟩ := ih h1
      refine ⟨i1.weaken fun a w => w.imp_right fun ⟨g, hg⟩ => ⟨g, by simp [hg]⟩, h2.trans i2, ?_⟩
      intro a l hl
      exact i3 a l ((h3 a (by
        by_contra c
        simp [read, List.getElem?_eq_none (not_lt.1 c)] at hl)).trans hl)
    | write b g =>
      have h1 := h.write b g
      obtain ⟨i1, i2, i3⟩ := ih h1
      refine ⟨i1.weaken ?_, le_trans (by simp [Listing.write]) i2, ?_⟩
      · rintro a ((w | rfl) | ⟨g', hg⟩)
        · exact .inl w
        · exact .inr ⟨g, by simp⟩
        · exact .inr ⟨g', by simp [hg]⟩
      · intro a l hl
        refine i3 a _ ?_
        simp only [read, Listing.write, List.getElem?_modify] at hl ⊢
        rw [hl]
        split_ifs <;> rfl

/-- Function `fn` holds `o` under `k` behind at most the keys `K`. -/
def Held (s : State) (fn : Fn) (k : Key) (o : Option ℕ) (K : Finset Key) : Prop :=
  ∃ pre post, s.caches fn = pre ++ (k, o) :: post ∧ (pre.map (·.1)).Nodup ∧
    ∀ e ∈ pre, e.1 ∈ K ∧ e.1 ≠ k

theorem Held.find {s : State} {fn : Fn} {k : Key} {o : Option ℕ} {K : Finset Key}
    (h : Held s fn k o K) : Listing.find k (s.caches fn) = some o := by
  obtain ⟨pre, post, h1, -, h3⟩ := h
  rw [h1]
  exact find_append fun e he => (h3 e he).2

theorem Held.push {s : State} {fn : Fn} {k : Key} {o : Option ℕ} {K : Finset Key}
    (h : Held s fn k o K) (hc : K.card < 128) {k' : Key} (hk : k' ∈ K) (hne : k' ≠ k)
    (hf : Listing.find k' (s.caches fn) = none) (o' : Option ℕ) (hp : List (List Str)) :
    Held ⟨hp, setCache s fn (((k', o') :: s.caches fn).take 128)⟩ fn k o K := by
  obtain ⟨pre, post, h1, h2, h3⟩ := h
  have hnot : ∀ e ∈ pre, e.1 ≠ k' := fun e he => find_none hf e (by rw [h1]; simp [he])
  have hn : (((k', o') :: pre).map (·.1)).Nodup := by
    rw [List.map_cons, List.nodup_cons]
    refine ⟨fun hm => ?_, h2⟩
    obtain ⟨e, he, he1⟩ := List.mem_map.1 hm
    exact hnot e he he1
  have hlen : pre.length + 1 ≤ K.card := by
    have : (((k', o') :: pre).map (·.1)).toFinset ⊆ K := by
      intro x hx
      obtain ⟨e, he, rfl⟩ := List.mem_map.1 (List.mem_toFinset.1 hx)
      rcases List.mem_cons.1 he with rfl | he
      · exact hk
      · exact (h3 e he).1
    have := Finset.card_le_card this
    rw [List.toFinset_card_of_nodup hn] at this
    simpa using this
  refine ⟨(k', o') :: pre, post.take (126 - pre.length), ?_, hn, ?_⟩
  · simp only [setCache, if_true, h1]
    rw [← List.cons_append, List.take_append, List.take_of_length_le (by simp; omega)]
    congr 1
    rw [show 128 - ((k', o') :: pre).length = (126 - pre.length) + 1 by simp; omega,
      List.take_succ_cons]
  · intro e he
    rcases List.mem_cons.1 he with rfl | he
    · exact ⟨hk, hne⟩
    · exact h3 e he

theorem Held.call {db : DB} {s : State} {fn : Fn} {k : Key} {o : Option ℕ} {K : Finset Key}
    (h : Held s fn k o K) (hc : K.card < 128) (fn' : Fn) (c : Call)
    (hk : fn' = fn → key c = k ∨ key c ∈ K) : Held (Listing.call db s fn' c).2 fn k o K := by
  by_cases hfn : fn' = fn
  swap
  · have e : ∀ l, setCache s fn' l fn = s.caches fn := fun l => if_neg (Ne.symm hfn)
    unfold Listing.call
    split
    · simpa only [Held, e] using h
    · split
      · exact h
      · simpa only [Held, e] using h
      · simpa only [Held, e] using h
  subst hfn
  by_cases hkq : key c = k
  · unfold Listing.call
    rw [hkq, h.find]
    exact ⟨[], _, by simp [setCache]; rfl, by simp, by simp⟩
  have hkK := (hk rfl).resolve_left hkq
  unfold Listing.call
  cases hl : Listing.find (key c) (s.caches fn') with
  | some b =>
    obtain ⟨pre, post, h1, h2, h3⟩ := h
    refine ⟨(key c, b) :: pre.filter (fun e => e.1 != key c), post.filter (fun e => e.1 != key c),
      ?_, ?_, ?_⟩
    · simp only [setCache, if_true, h1, List.filter_append, List.cons_append]
      rw [List.filter_cons_of_pos (by simpa using fun h => hkq h.symm)]
    · rw [List.map_cons, List.nodup_cons]
      refine ⟨?_, h2.sublist (List.filter_sublist.map _)⟩
      intro hm
      obtain ⟨e, he, he1⟩ := List.mem_map.1 hm
      simpa [he1] using (List.mem_filter.1 he).2
    · intro e he
      rcases List.mem_cons.1 he with rfl | he
      · exact ⟨hkK, hkq⟩
      · exact h3 e (List.mem_of_mem_filter he)
  | none =>
    cases hv : value db fn' c with
    | error e => exact h
    | ok v =>
      rcases v with _ | l
      · exact h.push hc hkK hkq hl _ _
      · exact h.push hc hkK hkq hl _ _

theorem Held.run {db : DB} {fn : Fn} {k : Key} {o : Option ℕ} {K : Finset Key} (hc : K.card < 128)
    (ops : List Op) (hops : ∀ c, Op.call fn c ∈ ops → key c = k ∨ key c ∈ K)
    {s : State} (h : Held s fn k o K) : Held (Listing.run db s ops) fn k o K := by
  induction ops generalizing s with
  | nil => exact h
  | cons op ops ih =>
    refine ih (fun c hm => hops c (by simp [hm])) ?_
    cases op with
    | call fn' c => exact h.call hc fn' c (by rintro rfl; exact hops c (by simp))
    | write b g => exact h

/-- Entries after a call are old or hold a new list. -/
theorem mem_call {db : DB} {s : State} {fn fn' : Fn} {c : Call} {e : Key × Option ℕ}
    (h : e ∈ (call db s fn c).2.caches fn') :
    e ∈ s.caches fn' ∨ e.2 = none ∨ e.2 = some s.heap.length := by
  unfold call at h
  split at h
  · next o hf =>
    rcases mem_setCache h with ⟨rfl, h⟩ | ⟨-, h⟩
    · rcases List.mem_cons.1 h with rfl | h
      · exact .inl (find_mem hf)
      · exact .inl (List.mem_of_mem_filter h)
    · exact .inl h
  · split at h
    · exact .inl h
    · rcases mem_setCache h with ⟨rfl, h⟩ | ⟨-, h⟩
      · rcases List.mem_cons.1 (List.mem_of_mem_take h) with rfl | h
        · exact .inr (.inl rfl)
        · exact .inl h
      · exact .inl h
    · rcases mem_setCache h with ⟨rfl, h⟩ | ⟨-, h⟩
      · rcases List.mem_cons.1 (List.mem_of_mem_take h) with rfl | h
        · exact .inr (.inr rfl)
        · exact .inl h
      · exact .inl h

/-- Only the entry of `fn` under `k` can hold the list at `a`. -/
def Only (s : State) (a : ℕ) (fn : Fn) (k : Key) : Prop :=
  a < s.heap.length ∧ ∀ fn' k', (k', some a) ∈ s.caches fn' → fn' = fn ∧ k' = k

theorem Only.call {db : DB} {s : State} {a : ℕ} {fn : Fn} {k : Key} (h : Only s a fn k) (fn' : Fn)
    (c : Call) : Only (Listing.call db s fn' c).2 a fn k := by
  refine ⟨?_, fun f2 k2 hm => ?_⟩
  · refine lt_of_lt_of_le h.1 ?_
    unfold Listing.call
    split
    · exact le_refl _
    · split <;> simp
  · rcases mem_call hm with hm | hm | hm
    · exact h.2 f2 k2 hm
    · cases hm
    · cases hm
      exact absurd h.1 (lt_irrefl _)

theorem Only.run {db : DB} (ops : List Op) {s : State} {a : ℕ} {fn : Fn} {k : Key}
    (h : Only s a fn k) : Only (Listing.run db s ops) a fn k := by
  induction ops generalizing s with
  | nil => exact h
  | cons o ops ih =>
    cases o with
    | call fn' c => exact ih (h.call fn' c)
    | write b g => exact ih (s := Listing.write s b g) ⟨by simpa [Listing.write] using h.1, h.2⟩

/-- The entry a call leaves behind. -/
theorem Inv.entry_of_call {db : DB} {W : ℕ → Prop} {s : State} (h : Inv db W s) {fn : Fn} {c : Call}
    {a : ℕ} (hc : (Listing.call db s fn c).1 = .ok (some a)) :
    ∃ t, (Listing.call db s fn c).2.caches fn = (key c, some a) :: t ∧
      a < (Listing.call db s fn c).2.heap.length := by
  obtain ⟨-, -, -, hv⟩ := h.call fn c
  rcases hval : value db fn c with e | (_ | l) <;> rw [hval] at hv
  · rw [hc] at hv; cases hv
  · rw [hc] at hv; cases hv
  · obtain ⟨b, t, h2, h3, h4, -⟩ := hv
    rw [hc] at h2
    cases h2
    exact ⟨t, h3, h4⟩

theorem key_iff {c c' : Call} : key c = key c' ↔ SameCall c c' := by
  have t : ∀ (b : Bool) (n : ℤ), ofBool b = n ↔ (n = 1 ∧ b = true) ∨ (n = 0 ∧ b = false) := by
    rintro (_ | _) n <;> simp [ofBool, eq_comm]
  have t' : ∀ (b b' : Bool), ofBool b = ofBool b' ↔ b = b' := by decide
  rcases c with _ | (s | n | b) | (s | n | b) <;> rcases c' with _ | (s' | n' | b') | (s' | n' | b') <;>
    first
      | (simp [key, SameCall, PyEq, t']; done)
      | simp [key, SameCall, PyEq, t, eq_comm (b := ofBool _)]

end Verif.Listing

namespace Verif.Props
open Verif Verif.Listing Verif.Spec Verif.Tables Verif.Registry Verif.Data

/-- **C146 (contents).** After any history, a call raises as documented or returns the documented list,
unless that very list was changed by a caller; every call is of one of the two kinds. -/
theorem C146_contents (db : DB) (ops : List Op) (fn : Fn) (c : Call) :
    ((∃ e, Refused db fn c e) ∨ ∃ r, Documented db fn c r) ∧
    (∀ e, Refused db fn c e → (call db (run db State.init ops) fn c).1 = .error e) ∧
    ∀ r, Documented db fn c r →
      match r with
      | none => (call db (run db State.init ops) fn c).1 = .ok none
      | some l => ∃ a, (call db (run db State.init ops) fn c).1 = .ok (some a) ∧
          ((∀ g, Op.write a g ∉ ops) →
            read (call db (run db State.init ops) fn c).2 a = some l) := by
  obtain ⟨h1, -, -⟩ := (Inv.init db fun _ => False).run ops
  obtain ⟨-, -, -, h⟩ := h1.call fn c
  have codes : ∀ (v : Arg) (p : Prop) (r : Option (List Str)), (truthy v = true ↔ p) → Codes db p r →
      body db .available v = .ok r := by
    intro v p r hp hr
    by_cases hv : p
    · rw [hr.1 hv]
      simp [body, availableAircraft, hp.2 hv]
    · rw [hr.2 hv]
      have : truthy v = false := by
        rw [← Bool.not_eq_true]
        exact fun h => hv (hp.1 h)
      simp [body, availableAircraft, this]
  have hd : ∀ r, Documented db fn c r → value db fn c = .ok r := by
    intro r hr
    rcases fn <;> rcases c with _ | (s | n | b) | (s | n | b) <;> simp only [Documented] at hr <;>
      first
        | exact hr.elim
        | (exact codes _ _ r (by simp [truthy]) hr)
        | (subst hr; rfl)
        | (obtain ⟨a, ha, rfl⟩ := hr; simp [value, body, engineOptions, ha, Except.map])
  have hr : ∀ e, Refused db fn c e → value db fn c = .error e := by
    intro e he
    rcases fn <;> rcases c with _ | (s | n | b) | (s | n | b) <;> simp only [Refused] at he <;>
      first
        | exact he.elim
        | (subst he; rfl)
        | (simp [value, body, engineOptions, he, Except.map])
  refine ⟨?_, fun e he => by rw [hr e he] at h; exact h, fun r hr => ?_⟩
  · have ex : ∀ p, ∃ r, Codes db p r := by
      intro p
      by_cases hp : p
      · exact ⟨_, fun _ => rfl, fun h => absurd hp h⟩
      · exact ⟨_, fun h => absurd h hp, fun _ => rfl⟩
    rcases fn <;> rcases c with _ | (s | n | b) | (s | n | b) <;> simp only [Documented, Refused] <;>
      first
        | exact .inr (ex _)
        | exact .inl ⟨_, rfl⟩
        | exact .inr ⟨_, rfl⟩
        | (rcases ha : Registry.aircraft db s false with e | a
           · exact .inl ⟨e, rfl⟩
           · exact .inr ⟨_, a, rfl, rfl⟩)
  rw [hd r hr] at h
  rcases r with _ | l
  · exact h
  · obtain ⟨a, t, h2, -, -, h3⟩ := h
    exact ⟨a, h2, fun hw => h3 (by simpa using hw)⟩

/-- **C146 (sharing).** A later call of the same function written the same way returns the same list,
with everything that was done to it in between, as long as fewer than 128 different other calls of that
function were made in between. -/
theorem C146_shared (db : DB) (before ops : List Op) (fn : Fn) (c c' : Call) (hcc : SameCall c c')
    (others : List Call) (hlen : others.length < 128)
    (hops : ∀ d, Op.call fn d ∈ ops → SameCall d c ∨ ∃ e ∈ others, SameCall d e) (a : ℕ)
    (hcall : (call db (run db State.init before) fn c).1 = .ok (some a)) :
    ∃ l, read (call db (run db State.init before) fn c).2 a = some l ∧
      (call db (run db (call db (run db State.init before) fn c).2 ops) fn c').1 = .ok (some a) ∧
      read (call db (run db (call db (run db State.init before) fn c).2 ops) fn c').2 a =
        some (replay a ops l) := by
  obtain ⟨h0, -, -⟩ := (Inv.init db fun _ => False).run before
  obtain ⟨h1, -, -, -⟩ := h0.call fn c
  obtain ⟨t, ht, ha⟩ := h0.entry_of_call hcall
  generalize (call db (run db State.init before) fn c).2 = s1 at *
  obtain ⟨h2, h3, h4⟩ := h1.run ops
  have hl : Listing.read s1 a = some s1.heap[a] := by simp [Listing.read, ha]
  refine ⟨_, hl, ?_⟩
  have held : Held s1 fn (key c) (some a) (others.map key).toFinset := ⟨[], t, ht, by simp, by simp⟩
  have hcard : (others.map key).toFinset.card < 128 :=
    lt_of_le_of_lt (List.toFinset_card_le _) (by simpa using hlen)
  have held2 := held.run (db := db) hcard ops (by
    intro d hd
    rcases hops d hd with e | ⟨e, he, e'⟩
    · exact .inl (key_iff.2 e)
    · exact .inr (List.mem_toFinset.2 (List.mem_map.2 ⟨e, he, (key_iff.2 e').symm⟩)))
  have hk : key c' = key c := (key_iff.2 hcc).symm
  obtain ⟨-, -, h5, -⟩ := h2.call fn c'
  refine ⟨?_, (h5 a (lt_of_lt_of_le ha h3)).trans (h4 a _ hl)⟩
  unfold call
  rw [hk, held2.find]

/-- **C146 (available_aircraft).** Called with nothing or with a boolean, the function never builds its
list a second time: what one caller did to it stays for the rest of the process. -/
theorem C146_available (db : DB) (before ops : List Op) (c : Call)
    (hb : ∀ d, d = c ∨ Op.call .available d ∈ ops →
      d = .none ∨ ∃ b, d = .pos (.bool b) ∨ d = .kw (.bool b)) :
    ∃ a l, (call db (run db State.init before) .available c).1 = .ok (some a) ∧
      read (call db (run db State.init before) .available c).2 a = some l ∧
      (call db (run db (call db (run db State.init before) .available c).2 ops) .available c).1 =
        .ok (some a) ∧
      read (call db (run db (call db (run db State.init before) .available c).2 ops) .available c).2 a =
        some (replay a ops l) := by
  have hdoc : ∃ l, Documented db .available c (some l) := by
    rcases hb c (.inl rfl) with rfl | ⟨_ | _, rfl | rfl⟩ <;>
      exact ⟨_, by simp [Documented, Codes]; rfl⟩
  obtain ⟨l0, hl0⟩ := hdoc
  obtain ⟨a, ha, -⟩ := (C146_contents db before .available c).2.2 _ hl0
  have refl : SameCall c c := by
    rcases hb c (.inl rfl) with rfl | ⟨b, rfl | rfl⟩ <;> simp [SameCall, PyEq]
  obtain ⟨l, h1, h2, h3⟩ := C146_shared db before ops .available c c refl
    [.none, .pos (.bool true), .pos (.bool false), .kw (.bool true), .kw (.bool false)] (by simp)
    (fun d hd => .inr (by
      rcases hb d (.inr hd) with rfl | ⟨_ | _, rfl | rfl⟩
      · exact ⟨.none, by simp, trivial⟩
      · exact ⟨.pos (.bool false), by simp, rfl⟩
      · exact ⟨.kw (.bool false), by simp, rfl⟩
      · exact ⟨.pos (.bool true), by simp, rfl⟩
      · exact ⟨.kw (.bool true), by simp, rfl⟩)) a ha
  exact ⟨a, l, ha, h1, h2, h3⟩

/-- **C146 (separation).** Two calls, of two functions or written in two ways, never return the same
list, whatever happens before and in between: a change made through one is not seen through the
other. -/
theorem C146_separate (db : DB) (before ops : List Op) (fn fn' : Fn) (c c' : Call)
    (hne : ¬ (fn = fn' ∧ SameCall c c')) (a a' : ℕ)
    (h : (call db (run db State.init before) fn c).1 = .ok (some a))
    (h' : (call db (run db (call db (run db State.init before) fn c).2 ops) fn' c').1 =
      .ok (some a')) : a ≠ a' := by
  rintro rfl
  obtain ⟨h0, -, -⟩ := (Inv.init db fun _ => False).run before
  obtain ⟨h1, -, -, -⟩ := h0.call fn c
  obtain ⟨t, ht, ha⟩ := h0.entry_of_call h
  obtain ⟨h2, -, -⟩ := h1.run ops
  obtain ⟨t', ht', -⟩ := h2.entry_of_call h'
  have o : Only (call db (run db State.init before) fn c).2 a fn (key c) :=
    ⟨ha, fun f2 k2 hm => h1.own f2 fn k2 (key c) a hm (by rw [ht]; simp)⟩
  obtain ⟨e1, e2⟩ := ((o.run (db := db) ops).call fn' c').2 fn' (key c') (by rw [ht']; simp)
  exact hne ⟨e1.symm, key_iff.1 e2.symm⟩

/-- The first caller sorts out the A320 from `available_aircraft()`; `available_aircraft(False)` and
`available_aircraft(use_synonym=False)` still have it, `available_aircraft()` has lost it. -/
example : ∃ s s' : State, ∃ a b : ℕ, ∃ l m : List Str,
    s = (call shipped State.init .available .none).2 ∧
    s' = write s a (fun l => l.filter (· != "a320".toList.map Char.toNat)) ∧
    (call shipped s' .available .none).1 = .ok (some a) ∧
    read (call shipped s' .available .none).2 a = some l ∧
    "a320".toList.map Char.toNat ∉ l ∧
    (call shipped s' .available (.pos (.bool false))).1 = .ok (some b) ∧
    read (call shipped s' .available (.pos (.bool false))).2 b = some m ∧
    "a320".toList.map Char.toNat ∈ m := by
  refine ⟨_, _, 0, 1, _, _, rfl, rfl, rfl, rfl, ?_, rfl, rfl, ?_⟩
  · simp
  · decide +kernel

end Verif.Props
