import Verif.Lemmas.Bada3Parse

/-!
# The pattern of `read_synonym` reads the layout of the specification
-/

namespace Verif.Bada3Parse
open Verif.Tables Verif.Registry Verif.Regex Verif.Spec Verif.Spec.Opf

theorem head_seq {a b : Re} {s mid r : Str} {ws₁ ws₂} (h1 : Head a s ws₁ mid) (h2 : Head b mid ws₂ r) :
    Head (.seq a b) s (ws₁ ++ ws₂) r := by
  intro pv caps
  obtain ⟨pv1, l1, e1⟩ := h1 pv caps
  obtain ⟨pv2, l2, e2⟩ := h2 pv1 (caps ++ ws₁)
  rw [run, e1, List.flatMap_cons, e2]
  exact ⟨pv2, _, by rw [List.append_assoc]; rfl⟩

theorem dot_iff (c : ℕ) : dot c = true ↔ c ≠ 10 := by simp [dot]

theorem lazyDot_split (pv caps) (a t : Str) (ha : ∀ c ∈ a, c ≠ 10) : ∃ pv' l l',
    lazyEnds dot pv caps (a ++ t) = l ++ ⟨pv', t, caps⟩ :: l' ∧
      ∀ y ∈ l, y.caps = caps ∧ ∃ a' a'', a = a' ++ a'' ∧ a'' ≠ [] ∧ y.rest = a'' ++ t := by
  induction a generalizing pv with
  | nil =>
    cases t with
    | nil => exact ⟨pv, [], [], by simp [lazyEnds]⟩
    | cons c t => exact ⟨pv, [], _, by simp only [List.nil_append, lazyEnds]; rfl, by simp⟩
  | cons c a ih =>
    obtain ⟨pv', l, l', e, hl⟩ := ih (some c) fun d hd => ha d (by simp [hd])
    refine ⟨pv', ⟨pv, c :: (a ++ t), caps⟩ :: l, l', ?_, ?_⟩
    · have hc : dot c = true := (dot_iff c).2 (ha c (by simp))
      simp only [List.cons_append, lazyEnds, hc, if_true]
      rw [e]
    · intro y hy
      rcases List.mem_cons.1 hy with rfl | hy
      · exact ⟨rfl, [], c :: a, by simp, by simp, by simp⟩
      · obtain ⟨h1, a', a'', h2, h3, h4⟩ := hl y hy
        exact ⟨h1, c :: a', a'', by simp [h2], h3, h4⟩

theorem head_after {a b : Re} {s r : Str} {ws}
    (h : ∀ pv caps, ∃ l y l' y' l'', run a ⟨pv, s, caps⟩ = l ++ y :: l' ∧
      (∀ z ∈ l, run b z = []) ∧ run b y = y' :: l'' ∧ y'.rest = r ∧ y'.caps = caps ++ ws) :
    Head (.seq a b) s ws r := by
  intro pv caps
  obtain ⟨l, y, l', ⟨p', r', c'⟩, l'', e, hz, hy, rfl, rfl⟩ := h pv caps
  rw [run, e, List.flatMap_append, List.flatMap_eq_nil_iff.2 hz, List.nil_append, List.flatMap_cons, hy]
  exact ⟨p', _, rfl⟩

theorem spaces2_fails {s : Str} (b : Re) (h : ∀ c d r, s = c :: d :: r → ¬ (Blank c ∧ Blank d)) :
    Fails (.seq spaces2 b) s := by
  refine fails_assoc ?_
  intro pv caps
  cases s with
  | nil => exact run_seq_cls_nil ..
  | cons c s =>
    rw [run_seq_cls]
    split
    · rename_i hc
      rw [run, plus_no space_iff]
      · rfl
      · intro d hd
        cases s with
        | nil => cases hd
        | cons d' r =>
          obtain rfl : d' = d := by simpa using hd
          exact fun hb => h c d' r rfl ⟨(space_iff c).1 hc, hb⟩
    · rfl

theorem spaces2_head {b rest : Str} (hl : 2 ≤ b.length) (hb : Run Blank b rest) :
    Head spaces2 (b ++ rest) [] rest := by
  match b, hl with
  | c :: d :: b, _ =>
    intro pv caps
    have hc : space c = true := (space_iff c).2 (hb.2.1 c (by simp))
    have hd : Run Blank (d :: b) rest := ⟨by simp, fun x hx => hb.2.1 x (by simp at hx ⊢; tauto), hb.2.2⟩
    obtain ⟨pv', l, e, _⟩ := plus_run space_iff hd (some c) caps
    unfold spaces2
    rw [List.cons_append, run_seq_cls, if_pos hc, e]
    exact ⟨pv', l, by simp⟩

/-- A proper end of a phrase does not start with two blanks. -/
theorem phrase_end {s a' a'' rest : Str} (hs : Phrase s) (e : s = a' ++ a'') (h0 : a'' ≠ []) :
    ∀ c d r, a'' ++ rest = c :: d :: r → ¬ (Blank c ∧ Blank d) := by
  obtain ⟨_, _, _, hlast, hdbl⟩ := hs
  intro c d r h
  match a'', h0 with
  | [x], _ =>
    simp only [List.singleton_append, List.cons.injEq] at h
    intro hb
    refine hlast x (by rw [e]; simp) ?_
    rw [h.1]; exact hb.1
  | x :: y :: v, _ =>
    simp only [List.cons_append, List.cons.injEq] at h
    obtain ⟨rfl, rfl, _⟩ := h
    exact hdbl a' x y v e

theorem manufacturer_head {k : Re} {man rest r : Str} {ws} (hp : Phrase man) (hl : 2 ≤ man.length)
    (hk : Head (.seq spaces2 k) rest ws r) :
    Head (.seq (.cap (.seq (.cls nonSpace) (.opt (.seq (.lazy dot) (.cls nonSpace)))))
      (.seq spaces2 k)) (man ++ rest) (man :: ws) r := by
  obtain ⟨c0, a, z, rfl⟩ : ∃ c0 a z, man = c0 :: (a ++ [z]) := by
    match man, hl with
    | c0 :: d :: m, _ =>
      rcases List.eq_nil_or_concat (d :: m) with h | ⟨a, z, h⟩
      · cases h
      · exact ⟨c0, a, z, by rw [h]; simp⟩
  obtain ⟨-, hn, hh, hz, -⟩ := id hp
  have hc0 : nonSpace c0 = true := (nonSpace_iff c0).2 (hh c0 rfl)
  have hz' : nonSpace z = true := (nonSpace_iff z).2 (hz z (by simp [List.getLast?_cons]))
  refine head_after fun pv caps => ?_
  obtain ⟨pv1, l, l', e, hle⟩ := lazyDot_split (some c0) caps a (z :: rest)
    fun d hd => hn d (by simp [hd])
  obtain ⟨pv2, l2, e2⟩ := hk (some z) (caps ++ [c0 :: (a ++ [z])])
  let g : Pos → Pos := fun y => { y with caps := y.caps ++
    [(c0 :: (a ++ z :: rest)).take ((c0 :: (a ++ z :: rest)).length - y.rest.length)] }
  have hrun : run (.cap (.seq (.cls nonSpace) (.opt (.seq (.lazy dot) (.cls nonSpace)))))
      ⟨pv, c0 :: (a ++ [z]) ++ rest, caps⟩ =
      (l.flatMap (run (.cls nonSpace))).map g ++ g ⟨some z, rest, caps⟩ ::
        ((l'.flatMap (run (.cls nonSpace))).map g ++ [g ⟨some c0, a ++ z :: rest, caps⟩]) := by
    have e0 : c0 :: (a ++ [z]) ++ rest = c0 :: (a ++ z :: rest) := by simp
    rw [e0, run, run_seq_cls, if_pos hc0]
    simp only [run]
    rw [e]
    simp only [List.flatMap_append, List.flatMap_cons, hz', if_true, List.map_append, List.map_cons,
      List.map_nil, List.append_assoc, List.singleton_append]
    rfl
  refine ⟨_, _, _, ⟨pv2, r, caps ++ [c0 :: (a ++ [z])] ++ ws⟩, l2, hrun, ?_, ?_, rfl, by simp⟩
  · intro w hw
    obtain ⟨y, hy, rfl⟩ := List.mem_map.1 hw
    obtain ⟨x, hx, hy⟩ := List.mem_flatMap.1 hy
    obtain ⟨hxc, a', a'', h2, h3, h4⟩ := hle x hx
    obtain ⟨px, rx, cx⟩ := x
    simp only at h4
    subst h4
    cases a'' with
    | nil => exact absurd rfl h3
    | cons d a'' =>
      simp only [run, List.cons_append] at hy
      split at hy
      · obtain rfl := List.mem_singleton.1 hy
        refine spaces2_fails _ ?_ _ _
        have : a'' ++ z :: rest = (a'' ++ [z]) ++ rest := by simp
        rw [this]
        exact phrase_end (a' := c0 :: (a' ++ [d])) hp (by rw [h2]; simp) (by simp)
      · cases hy
  · rw [← e2]
    congr 1
    simp only [g]
    congr 3
    have : c0 :: (a ++ z :: rest) = (c0 :: (a ++ [z])) ++ rest := by simp
    rw [this, List.length_append, Nat.add_sub_cancel, List.take_left']
    rfl

theorem model_head {k : Re} {model rest r : Str} {ws} (hp : Phrase model)
    (hk : Head (.seq spaces2 k) rest ws r) :
    Head (.seq (.cap (.seq (.cls dot) (.lazy dot))) (.seq spaces2 k)) (model ++ rest) (model :: ws) r := by
  obtain ⟨c0, a, rfl⟩ : ∃ c0 a, model = c0 :: a := List.exists_cons_of_ne_nil hp.1
  have hn := hp.2.1
  have hc0 : dot c0 = true := (dot_iff c0).2 (hn c0 (by simp))
  refine head_after fun pv caps => ?_
  obtain ⟨pv1, l, l', e, hle⟩ := lazyDot_split (some c0) caps a rest fun d hd => hn d (by simp [hd])
  obtain ⟨pv2, l2, e2⟩ := hk pv1 (caps ++ [c0 :: a])
  let g : Pos → Pos := fun y => { y with caps := y.caps ++
    [(c0 :: (a ++ rest)).take ((c0 :: (a ++ rest)).length - y.rest.length)] }
  have hrun : run (.cap (.seq (.cls dot) (.lazy dot))) ⟨pv, c0 :: a ++ rest, caps⟩ =
      l.map g ++ g ⟨pv1, rest, caps⟩ :: l'.map g := by
    rw [List.cons_append, run, run_seq_cls, if_pos hc0, run, e, List.map_append, List.map_cons]
  refine ⟨_, _, _, ⟨pv2, r, caps ++ [c0 :: a] ++ ws⟩, l2, hrun, ?_, ?_, rfl, by simp⟩
  · intro w hw
    obtain ⟨⟨px, rx, cx⟩, hx, rfl⟩ := List.mem_map.1 hw
    obtain ⟨hxc, a', a'', h2, h3, h4⟩ := hle _ hx
    simp only at h4
    subst h4
    refine spaces2_fails _ ?_ _ _
    exact phrase_end (a' := c0 :: a') hp (by rw [h2]; simp) h3
  · rw [← e2]
    congr 1
    simp only [g]
    congr 3
    rw [← List.cons_append, List.length_append, Nat.add_sub_cancel, List.take_left']
    rfl

theorem tail_head {tail nl : Str} (ht : ∀ c ∈ tail, c ≠ 10) (hnl : nl = [] ∨ nl = [10]) :
    Head (.seq (.lazy dot) (.seq (lit [47]) .eol)) (tail ++ 47 :: nl) [] nl := by
  refine head_after fun pv caps => ?_
  obtain ⟨pv1, l, l', e, hle⟩ := lazyDot_split pv caps tail (47 :: nl) ht
  refine ⟨l, _, l', ⟨some 47, nl, caps⟩, [], by rw [run, e], ?_, ?_, rfl, by simp⟩
  · rintro ⟨px, rx, cx⟩ hx
    obtain ⟨_, a', a'', h2, h3, h4⟩ := hle _ hx
    simp only at h4
    subst h4
    refine fails_lit ?_ _ _
    rintro rest h pv' caps'
    have hm : rest ≠ [] ∧ rest ≠ [10] := by
      cases a'' with
      | nil => exact absurd rfl h3
      | cons x a'' =>
        simp only [List.cons_append, List.nil_append, List.cons.injEq] at h
        rw [← h.2]
        constructor
        · simp
        · intro h'
          have : (47 : ℕ) ∈ a'' ++ 47 :: nl := by simp
          rw [h'] at this
          simp at this
    simp [run, hm.1, hm.2]
  · have h := lit_only [47] nl .eol pv1 caps
    simp only [List.cons_append, List.nil_append] at h
    rw [h, run, if_pos hnl]
    rfl

theorem bol_head {b : Re} {s : Str} (caps) : run (.seq .bol b) ⟨none, s, caps⟩ = run b ⟨none, s, caps⟩ := by
  simp [run]

theorem run_of (p : ℕ → Prop) {b rest : Str} (h : b ≠ [] ∧ ∀ c ∈ b, p c)
    (hr : ∀ c, rest.head? = some c → ¬ p c) : Run p b rest := ⟨h.1, h.2, hr⟩

theorem head_of_cons {P : ℕ → Prop} {w rest : Str} (h0 : w ≠ [])
    (h : ∀ c, w.head? = some c → P c) : ∀ c, (w ++ rest).head? = some c → P c := by
  cases w with
  | nil => exact absurd rfl h0
  | cons d w => simpa using h

theorem synonym_found {line code man model file : Str} (h : SynonymLine line code man model file) :
    ∃ w, matchAt synonymPattern none line = some ⟨w, [code, man, model, file]⟩ := by
  obtain ⟨b1, x, b2, b3, b4, b5, b6, tail, nl, rfl, hb, hx, h4, h5, hc0, hc, hf0, hf, hman, hml, hmod, ht,
    hth, hnl⟩ := h
  have B1 := hb b1 (by simp)
  have B2 := hb b2 (by simp)
  have B3 := hb b3 (by simp)
  have B4 := hb b4 (by simp)
  have B5 := hb b5 (by simp)
  have B6 := hb b6 (by simp)
  have blankHead : ∀ {b rest : Str}, (b ≠ [] ∧ ∀ c ∈ b, Blank c) →
      ∀ c, (b ++ rest).head? = some c → ¬ ¬ Blank c := by
    intro b rest hb c hc
    match b, hb with
    | d :: b, hb =>
      obtain rfl : d = c := by simpa using hc
      exact not_not.2 (hb.2 d (by simp))
  have hlast : ∀ c, (tail ++ 47 :: nl).head? = some c → ¬ Blank c := by
    cases tail with
    | nil => simp [Blank]
    | cons d t => simpa using hth
  have H6 := head_seq (head_last space_iff (run_of Blank B6 hlast)) (tail_head ht hnl)
  have H5 := head_seq (head_caplast nonSpace_iff (run_of (fun c => ¬ Blank c) ⟨hf0, hf⟩
    (blankHead (rest := tail ++ 47 :: nl) B6))) H6
  have H4 := model_head hmod (head_seq (spaces2_head h5 (run_of Blank B5
    (head_of_cons hf0 fun c h => hf c (List.mem_of_mem_head? h)))) H5)
  have H3 := manufacturer_head hman hml (head_seq (spaces2_head h4 (run_of Blank B4
    (head_of_cons hmod.1 hmod.2.2.1))) H4)
  have H2 := head_seq (head_caplast nonSpace_iff (run_of (fun c => ¬ Blank c) ⟨hc0, hc⟩
    (blankHead B3))) (head_seq (head_last space_iff (run_of Blank B3
    (head_of_cons hman.1 hman.2.2.1))) H3)
  have H1 := head_seq (head_last space_iff (run_of Blank B2
    (head_of_cons hc0 fun c h => hc c (List.mem_of_mem_head? h)))) H2
  have Hx : ∀ {b : Re} {s r : Str} {ws}, Head b s ws r → Head (.seq (.cls nonSpace) b) (x :: s) ws r := by
    intro b s r ws h pv caps
    rw [run_seq_cls, if_pos ((nonSpace_iff x).2 hx)]
    exact h _ _
  have H0 := head_lit (k := cd) (head_seq (head_last space_iff (run_of Blank (rest := x :: _) B1
    (by simpa using hx))) (Hx H1))
  obtain ⟨pv', l, e⟩ := H0 none []
  unfold matchAt synonymPattern
  rw [bol_head]
  simp only [List.nil_append] at e
  unfold cd at e
  simp only [cd]
  rw [e]
  exact ⟨_, rfl⟩

theorem caps_prefix : ∀ (r : Re) (x y : Pos), y ∈ run r x → x.caps <+: y.caps := by
  have hstar : ∀ (p : ℕ → Bool) s pv caps, ∀ y ∈ starEnds p pv caps s, y.caps = caps := by
    intro p s
    induction s with
    | nil => intro pv caps y hy; simp [starEnds] at hy; rw [hy]
    | cons c s ih =>
      intro pv caps y hy
      unfold starEnds at hy
      split at hy
      · rcases List.mem_append.1 hy with hy | hy
        · exact ih _ _ y hy
        · simp at hy; rw [hy]
      · simp at hy; rw [hy]
  have hlazy : ∀ (p : ℕ → Bool) s pv caps, ∀ y ∈ lazyEnds p pv caps s, y.caps = caps := by
    intro p s
    induction s with
    | nil => intro pv caps y hy; simp [lazyEnds] at hy; rw [hy]
    | cons c s ih =>
      intro pv caps y hy
      unfold lazyEnds at hy
      rcases List.mem_cons.1 hy with rfl | hy
      · rfl
      · split at hy
        · exact ih _ _ y hy
        · cases hy
  intro r
  induction r with
  | cls p =>
    rintro ⟨pv, s, caps⟩ y hy
    cases s with
    | nil => simp [run] at hy
    | cons c s =>
      simp only [run] at hy
      split at hy
      · simp at hy; subst hy; exact List.prefix_rfl
      · cases hy
  | plus p =>
    rintro ⟨pv, s, caps⟩ y hy
    cases s with
    | nil => simp [run] at hy
    | cons c s =>
      simp only [run] at hy
      split at hy
      · rw [hstar _ _ _ _ y hy]
      · cases hy
  | star p => intro x y hy; rw [hstar _ _ _ _ y hy]
  | lazy p => intro x y hy; rw [hlazy _ _ _ _ y hy]
  | seq a b iha ihb =>
    intro x y hy
    obtain ⟨z, hz, hy⟩ := List.mem_flatMap.1 hy
    exact (iha x z hz).trans (ihb z y hy)
  | opt a ih =>
    intro x y hy
    rcases List.mem_append.1 hy with hy | hy
    · exact ih x y hy
    · simp at hy; subst hy; exact List.prefix_rfl
  | cap a ih =>
    intro x y hy
    obtain ⟨z, hz, rfl⟩ := List.mem_map.1 hy
    exact (ih x z hz).trans (List.prefix_append _ _)
  | bol => intro x y hy; simp only [run] at hy; split at hy <;> simp at hy; subst hy; exact List.prefix_rfl
  | eolM => intro x y hy; simp only [run] at hy; split at hy <;> simp at hy; subst hy; exact List.prefix_rfl
  | eol => intro x y hy; simp only [run] at hy; split at hy <;> simp at hy; subst hy; exact List.prefix_rfl
  | eps => intro x y hy; simp [run] at hy; subst hy; exact List.prefix_rfl

/-- Whatever line matches, its first group is the code. -/
theorem synonym_code {line w : Str} {gs : List Str} (h : matchAt synonymPattern none line = some ⟨w, gs⟩) :
    ∃ code, Code line code ∧ gs.head? = some code := by
  unfold matchAt synonymPattern at h
  rw [bol_head] at h
  by_contra hno
  have hsp : ∀ c r, Blank c → ∀ b, Fails (.seq (.cls nonSpace) b) (c :: r) := by
    intro c r hc b pv caps
    rw [run_seq_cls, if_neg]
    intro h
    exact (nonSpace_iff c).1 h hc
  -- the outcome from a position
  have key : ∀ y, y ∈ run (.seq (lit cd) (.seq (.plus space) (.seq (.cls nonSpace) (.seq (.plus space)
    (.seq (.cap (.plus nonSpace)) (.seq (.plus space)
    (.seq (.cap (.seq (.cls nonSpace) (.opt (.seq (.lazy dot) (.cls nonSpace))))) (.seq spaces2
    (.seq (.cap (.seq (.cls dot) (.lazy dot))) (.seq spaces2
    (.seq (.cap (.plus nonSpace)) (.seq (.plus space)
    (.seq (.lazy dot) (.seq (lit [47]) .eol)))))))))))))) ⟨none, line, []⟩ →
      ∃ code, Code line code ∧ y.caps.head? = some code := by
    intro y hy
    by_cases h1 : ∃ r1, line = cd ++ r1
    swap
    · rw [lit_no _ (fun rest e => h1 ⟨rest, e⟩)] at hy; cases hy
    obtain ⟨r1, rfl⟩ := h1
    rw [lit_only] at hy
    rcases run_split Blank r1 with ⟨b, r2, rfl, hb⟩ | hb
    swap
    · rw [run, plus_no space_iff hb] at hy; cases hy
    obtain ⟨pv, e⟩ := plus_only space_iff (fun c r hc => hsp c r hc _) hb (cd.getLast?.or none) []
    rw [e] at hy
    cases r2 with
    | nil => rw [run_seq_cls_nil] at hy; cases hy
    | cons x r2 =>
      rw [run_seq_cls] at hy
      split at hy
      swap
      · cases hy
      rename_i hx
      have hx' := (nonSpace_iff x).1 hx
      rcases run_split Blank r2 with ⟨b', r3, rfl, hb'⟩ | hb'
      swap
      · rw [run, plus_no space_iff hb'] at hy; cases hy
      obtain ⟨pv2, e2⟩ := plus_only space_iff (fun c r hc => fails_capstart nonSpace_iff _ fun h => h hc)
        hb' (some x) []
      rw [e2] at hy
      rcases run_split (fun c => ¬ Blank c) r3 with ⟨code, r4, rfl, hc⟩ | hc
      swap
      · rw [run, run, plus_no nonSpace_iff hc] at hy; cases hy
      obtain ⟨pv3, e3⟩ := capplus_only nonSpace_iff (fun c r hc => word_sp r _ hc) hc pv2 []
      rw [e3] at hy
      refine ⟨code, ⟨b, x, b', r4, rfl, hb, hx', hb', hc⟩, ?_⟩
      obtain ⟨t, ht⟩ := caps_prefix _ _ _ hy
      rw [← ht]; rfl
  cases hr : run _ (⟨none, line, []⟩ : Pos) with
  | nil => rw [hr] at h; cases h
  | cons y l =>
    obtain ⟨code, hc, hh⟩ := key y (by rw [hr]; exact List.mem_cons_self)
    rw [hr] at h
    simp only [List.head?_cons, Option.map_some, Option.some.injEq, Match.mk.injEq] at h
    exact hno ⟨code, hc, by rw [← h.2]; exact hh⟩

/-- A line that does not end in a slash is not used. -/
theorem synonym_slash {line w : Str} {gs : List Str}
    (h : matchAt synonymPattern none line = some ⟨w, gs⟩) :
    ∃ a, line = a ++ [47] ∨ line = a ++ [47, 10] := by
  have suf : ∀ (r : Re) (x y : Pos), y ∈ run r x → y.rest <:+ x.rest := by
    have hstar : ∀ (p : ℕ → Bool) s pv caps, ∀ y ∈ starEnds p pv caps s, y.rest <:+ s := by
      intro p s
      induction s with
      | nil => intro pv caps y hy; simp [starEnds] at hy; rw [hy]
      | cons c s ih =>
        intro pv caps y hy
        unfold starEnds at hy
        split at hy
        · rcases List.mem_append.1 hy with hy | hy
          · exact (ih _ _ y hy).trans (List.suffix_cons _ _)
          · simp at hy; rw [hy]
        · simp at hy; rw [hy]
    have hlazy : ∀ (p : ℕ → Bool) s pv caps, ∀ y ∈ lazyEnds p pv caps s, y.rest <:+ s := by
      intro p s
      induction s with
      | nil => intro pv caps y hy; simp [lazyEnds] at hy; rw [hy]
      | cons c s ih =>
        intro pv caps y hy
        unfold lazyEnds at hy
        rcases List.mem_cons.1 hy with rfl | hy
        · exact List.suffix_rfl
        · split at hy
          · exact (ih _ _ y hy).trans (List.suffix_cons _ _)
          · cases hy
    intro r
    induction r with
    | cls p =>
      rintro ⟨pv, s, caps⟩ y hy
      cases s with
      | nil => simp [run] at hy
      | cons c s =>
        simp only [run] at hy
        split at hy
        · simp at hy; subst hy; exact List.suffix_cons _ _
        · cases hy
    | plus p =>
      rintro ⟨pv, s, caps⟩ y hy
      cases s with
      | nil => simp [run] at hy
      | cons c s =>
        simp only [run] at hy
        split at hy
        · exact (hstar _ _ _ _ y hy).trans (List.suffix_cons _ _)
        · cases hy
    | star p => intro x y hy; exact hstar _ _ _ _ y hy
    | lazy p => intro x y hy; exact hlazy _ _ _ _ y hy
    | seq a b iha ihb =>
      intro x y hy
      obtain ⟨z, hz, hy⟩ := List.mem_flatMap.1 hy
      exact (ihb z y hy).trans (iha x z hz)
    | opt a ih =>
      intro x y hy
      rcases List.mem_append.1 hy with hy | hy
      · exact ih x y hy
      · simp at hy; subst hy; exact List.suffix_rfl
    | cap a ih =>
      intro x y hy
      obtain ⟨z, hz, rfl⟩ := List.mem_map.1 hy
      exact ih x z hz
    | bol => intro x y hy; simp only [run] at hy; split at hy <;> simp at hy; subst hy; exact List.suffix_rfl
    | eolM => intro x y hy; simp only [run] at hy; split at hy <;> simp at hy; subst hy; exact List.suffix_rfl
    | eol => intro x y hy; simp only [run] at hy; split at hy <;> simp at hy; subst hy; exact List.suffix_rfl
    | eps => intro x y hy; simp [run] at hy; subst hy; exact List.suffix_rfl
  have step : ∀ {a b : Re} {y : Pos}, (∃ z : Pos, z.rest <:+ line ∧ y ∈ run (.seq a b) z) →
      ∃ z : Pos, z.rest <:+ line ∧ y ∈ run b z := by
    rintro a b y ⟨z, hz, hy⟩
    obtain ⟨z', hz', hy⟩ := List.mem_flatMap.1 hy
    exact ⟨z', (suf a z z' hz').trans hz, hy⟩
  unfold matchAt at h
  cases hr : run synonymPattern (⟨none, line, []⟩ : Pos) with
  | nil => rw [hr] at h; cases h
  | cons y l =>
    have hy : ∃ z : Pos, z.rest <:+ line ∧ y ∈ run synonymPattern z :=
      ⟨⟨none, line, []⟩, List.suffix_rfl, by rw [hr]; exact List.mem_cons_self⟩
    unfold synonymPattern at hy
    iterate 14 replace hy := step hy
    obtain ⟨⟨pv, s, caps⟩, ⟨a, ha⟩, hy⟩ := hy
    simp only at ha
    by_cases hs : ∃ r, s = [47] ++ r
    · obtain ⟨r, rfl⟩ := hs
      rw [lit_only, run] at hy
      split at hy
      · rename_i he
        rcases he with rfl | rfl
        · exact ⟨a, .inl (by rw [← ha]; rfl)⟩
        · exact ⟨a, .inr (by rw [← ha]; rfl)⟩
      · cases hy
    · rw [lit_no _ (fun r e => hs ⟨r, e⟩)] at hy
      cases hy

theorem splitLines_flatten (acc s : Str) : (splitLines acc s).flatten = acc.reverse ++ s := by
  induction s generalizing acc with
  | nil => unfold splitLines; split <;> simp_all
  | cons c s ih =>
    unfold splitLines
    split
    · simp [ih]
    · rw [ih]; simp

theorem splitLines_lines (acc s : Str) (h : ∀ c ∈ acc, c ≠ 10) : ∀ l ∈ splitLines acc s,
    l ≠ [] ∧ ∃ b nl, l = b ++ nl ∧ (∀ c ∈ b, c ≠ 10) ∧ (nl = [] ∨ nl = [10]) := by
  induction s generalizing acc with
  | nil =>
    unfold splitLines
    split
    · simp
    · rename_i ha
      intro l hl
      obtain rfl := List.mem_singleton.1 hl
      exact ⟨by simpa using ha, acc.reverse, [], by simp, by simpa using h, .inl rfl⟩
  | cons c s ih =>
    unfold splitLines
    split
    · rename_i hc
      intro l hl
      rcases List.mem_cons.1 hl with rfl | hl
      · exact ⟨by simp, acc.reverse, [10], by simp [hc], by simpa using h, .inr rfl⟩
      · exact ih [] (by simp) l hl
    · rename_i hc
      exact ih (c :: acc) (by simpa using ⟨hc, h⟩)

end Verif.Bada3Parse
