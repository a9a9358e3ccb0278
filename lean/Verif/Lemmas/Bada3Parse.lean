import Verif.Model.Bada3Parse
import Verif.Lemmas.Regex

/-!
# The patterns of `parse_opf_content` read the layout of the specification
-/

namespace Verif.Bada3Parse
open Verif.Tables Verif.Registry Verif.Regex Verif.Spec Verif.Spec.Opf

theorem space_iff (c : ℕ) : space c = true ↔ Blank c := isSpace_iff c
theorem nonSpace_iff (c : ℕ) : nonSpace c = true ↔ ¬ Blank c := by
  unfold nonSpace; rw [Bool.not_eq_true', Bool.eq_false_iff, ne_eq, isSpace_iff]
theorem digit_iff (c : ℕ) : digit c = true ↔ IsDigit c := by
  unfold digit IsDigit; simp
theorem numeric_iff (c : ℕ) : numeric c = true ↔ NumChar c := by
  unfold numeric NumChar
  have := digit_iff c
  simp only [Bool.or_eq_true, beq_iff_eq, List.mem_cons, List.not_mem_nil, or_false, this]
  tauto

theorem num_notBlank {c : ℕ} (h : NumChar c) : ¬ Blank c := by
  unfold NumChar IsDigit at h; unfold Blank
  simp only [List.mem_cons, List.not_mem_nil, or_false] at *
  omega
theorem digit_notBlank {c : ℕ} (h : IsDigit c) : ¬ Blank c := num_notBlank (.inl h)

/-- The words kept by the groups. -/
def select : List Bool → List Str → List Str
  | [], _ => []
  | _, [] => []
  | b :: bs, w :: ws => if b then w :: select bs ws else select bs ws

theorem fields_start {c : ℕ} (h : ¬ Blank c) (r : Str) (b : Bool) (bs : List Bool) :
    Fails (fields (b :: bs)) (c :: r) := by
  cases bs with
  | nil => exact fails_start space_iff _ h
  | cons b' bs => exact fails_assoc (fails_start space_iff _ h)

theorem fields_head (b : Bool) (bs : List Bool) : ∀ (ws : List Str) (s : Str),
    ws.length = bs.length + 1 → Numbers ws s →
    ∃ rest, Head (fields (b :: bs)) s (select (b :: bs) ws) rest := by
  induction bs generalizing b with
  | nil =>
    intro ws s hl hn
    obtain ⟨w, rfl⟩ := List.length_eq_one_iff.1 hl
    obtain ⟨bl, rest, rfl, hb, hw, -⟩ := hn
    refine ⟨rest, head_plus space_iff ?_ hb ?_⟩
    · intro c r hc
      cases b
      · exact plus_no numeric_iff (by simpa using fun h => num_notBlank h hc)
      · exact fails_caplast numeric_iff fun w rest e hw => by
          obtain ⟨h0, h1, _⟩ := hw
          cases w with
          | nil => exact h0 rfl
          | cons d w =>
            simp only [List.cons_append, List.cons.injEq] at e
            exact num_notBlank (h1 d (by simp)) (e.1 ▸ hc)
    · cases b
      · simpa [select] using head_last numeric_iff hw
      · simpa [select] using head_caplast numeric_iff hw
  | cons b' bs ih =>
    intro ws s hl hn
    cases ws with
    | nil => simp at hl
    | cons w ws =>
      obtain ⟨bl, rest, rfl, hb, hw, hn⟩ := hn
      obtain ⟨r, hr⟩ := ih b' ws rest (by simpa using hl) hn
      refine ⟨r, head_assoc (head_plus space_iff ?_ hb ?_)⟩
      · intro c r hc
        cases b
        · exact fails_start numeric_iff _ fun h => num_notBlank h hc
        · exact fails_capstart numeric_iff _ fun h => num_notBlank h hc
      · have hf : ∀ c r, NumChar c → Fails (fields (b' :: bs)) (c :: r) :=
          fun c r hc => fields_start (num_notBlank hc) r _ _
        cases b
        · simpa [select] using head_plus numeric_iff hf hw hr
        · simpa [select] using head_capplus numeric_iff hf hw hr

theorem fields_fails (b : Bool) (bs : List Bool) : ∀ (s : Str),
    (∀ ws : List Str, ws.length = bs.length + 1 → ¬ Numbers ws s) → Fails (fields (b :: bs)) s := by
  induction bs generalizing b with
  | nil =>
    intro s h
    have key : ∀ w rest, s = w ++ rest → Run Blank w rest → ∀ w' rest', rest = w' ++ rest' →
        Run NumChar w' rest' → False := by
      rintro w rest rfl hb w' rest' rfl hw
      exact h [w'] rfl ⟨w, rest', rfl, hb, hw, trivial⟩
    have st : ∀ c r, Blank c → ∀ w rest, (c :: r : Str) = w ++ rest → Run NumChar w rest → False := by
      intro c r hc w rest e hw
      obtain ⟨h0, h1, _⟩ := hw
      cases w with
      | nil => exact h0 rfl
      | cons d w =>
        simp only [List.cons_append, List.cons.injEq] at e
        exact num_notBlank (h1 d (by simp)) (e.1 ▸ hc)
    cases b
    · exact fails_plus space_iff (fun c r hc => fails_last numeric_iff (st c r hc))
        fun w rest e hb => fails_last numeric_iff (key w rest e hb)
    · exact fails_plus space_iff (fun c r hc => fails_caplast numeric_iff (st c r hc))
        fun w rest e hb => fails_caplast numeric_iff (key w rest e hb)
  | cons b' bs ih =>
    intro s h
    have hf : ∀ c r, NumChar c → Fails (fields (b' :: bs)) (c :: r) :=
      fun c r hc => fields_start (num_notBlank hc) r _ _
    have key : ∀ w rest, s = w ++ rest → Run Blank w rest → ∀ w' rest', rest = w' ++ rest' →
        Run NumChar w' rest' → Fails (fields (b' :: bs)) rest' := by
      rintro w rest rfl hb w' rest' rfl hw
      refine ih b' rest' fun ws hl hn => ?_
      exact h (w' :: ws) (by simp [hl]) ⟨w, rest', rfl, hb, hw, hn⟩
    refine fails_assoc ?_
    cases b
    · exact fails_plus space_iff
        (fun c r hc => fails_start numeric_iff _ fun h => num_notBlank h hc)
        fun w rest e hb => fails_plus numeric_iff hf (key w rest e hb)
    · exact fails_plus space_iff
        (fun c r hc => fails_capstart numeric_iff _ fun h => num_notBlank h hc)
        fun w rest e hb => fails_capplus numeric_iff hf (key w rest e hb)

/-- Searching for `key` followed by a pattern: first place. -/
theorem head_place {key : Str} {b : Re} {P : Str → Prop} {s rest : Str} {ws r}
    (hf : ∀ t, ¬ P t → Fails b t) (h : FirstPlace key P s rest) (hh : Head b rest ws r) :
    Head (.seq (.lazy any) (.seq (lit key) b)) s ws r := by
  obtain ⟨a, rfl, hp, hmin⟩ := h
  refine head_lazy (head_lit hh) fun a' t' e hl => fails_lit ?_
  rintro rest' rfl
  refine hf _ fun hp' => ?_
  exact absurd (hmin a' rest' e hp') (by omega)

theorem search_place {key : Str} {b : Re} {P : Str → Prop} {s rest : Str} {ws r}
    (hf : ∀ t, ¬ P t → Fails b t) (h : FirstPlace key P s rest) (hh : Head b rest ws r) :
    ∃ w, search (.seq (lit key) b) s = some ⟨w, ws⟩ := by
  obtain ⟨a, rfl, hp, hmin⟩ := h
  refine ⟨_, search_head a _ (head_lit hh) fun a' t' e hl => fails_lit ?_⟩
  rintro rest' rfl
  refine hf _ fun hp' => ?_
  exact absurd (hmin a' rest' e hp') (by omega)

theorem search_noplace {key : Str} {b : Re} {s : Str}
    (hf : ∀ m t, s = m ++ (key ++ t) → Fails b t) : search (.seq (lit key) b) s = none :=
  search_none fun a t e => fails_lit fun rest e' => hf a rest (by rw [e, e'])

/-- The first `header` decides. -/
theorem search_header {header body a : Str} {b : Re} {content : Str} {ws r}
    (h : FirstAt header content a body) (hh : Head b body ws r) :
    ∃ w, search (.seq (lit header) b) content = some ⟨w, ws⟩ := by
  obtain ⟨rfl, hmin⟩ := h
  refine ⟨_, search_head a _ (head_lit hh) fun a' t' e hl => fails_lit ?_⟩
  rintro rest' rfl
  exact absurd (hmin a' rest' e) (by omega)

theorem suffix_of {header a body a' body' : Str} (h : a ++ (header ++ body) = a' ++ (header ++ body'))
    (hl : a.length ≤ a'.length) : ∃ m, body = m ++ body' := by
  have h' : body <:+ a ++ (header ++ body) := ⟨a ++ header, by simp⟩
  have h'' : body' <:+ a ++ (header ++ body) := ⟨a' ++ header, by rw [h]; simp⟩
  have hlen := congrArg List.length h
  simp only [List.length_append] at hlen
  obtain ⟨m, hm⟩ := List.suffix_of_suffix_length_le h'' h' (by omega)
  exact ⟨m, hm.symm⟩

theorem first_header (header content : Str) :
    (∃ a body, FirstAt header content a body) ∨ Absent header content := by
  rcases first_split (fun t => ∃ r, t = header ++ r) content with ⟨a, t, e, ⟨r, rfl⟩, hm⟩ | h
  · exact .inl ⟨a, r, e, fun a' rest' e' => hm a' _ e' ⟨rest', rfl⟩⟩
  · exact .inr fun a rest e => h a _ e ⟨rest, rfl⟩

theorem first_place (key : Str) (P : Str → Prop) (s : Str) :
    (∃ rest, FirstPlace key P s rest) ∨ ∀ m t, s = m ++ (key ++ t) → ¬ P t := by
  rcases first_split (fun t => ∃ r, t = key ++ r ∧ P r) s with ⟨a, t, e, ⟨r, rfl, hp⟩, hm⟩ | h
  · exact .inl ⟨r, a, e, hp, fun a' rest' e' hp' => hm a' _ e' ⟨rest', rfl, hp'⟩⟩
  · exact .inr fun m t e hp => h m _ e ⟨t, rfl, hp⟩

theorem search_noheader {header : Str} {b : Re} {content : Str}
    (h : ∀ a body, FirstAt header content a body → ∀ m t, body = m ++ t → Fails b t) :
    search (.seq (lit header) b) content = none := by
  refine search_none fun a t e => fails_lit fun body' e' => ?_
  subst e'
  rcases first_header header content with ⟨a0, body, hf⟩ | hf
  · obtain ⟨m, hm⟩ := suffix_of (hf.1.symm.trans e) (hf.2 a body' e)
    exact h a0 body hf m body' hm
  · exact absurd e (hf a body')

section sections
variable (b : Bool) (bs : List Bool)

theorem section_found {header content : Str} {ws : List Str} (h : Section header content ws)
    (hl : ws.length = bs.length + 1) :
    ∃ w, search (section_ header (b :: bs)) content = some ⟨w, select (b :: bs) ws⟩ := by
  obtain ⟨a, body, rest, h1, h2, h3⟩ := h
  obtain ⟨r, hr⟩ := fields_head b bs ws rest hl h3
  refine search_header h1 (head_place ?_ h2 hr)
  intro t ht
  exact fields_fails b bs t fun vs hv hn => ht ⟨vs, hv.trans hl.symm, hn⟩

theorem section_missing {header content : Str} (h : NoSection header content (bs.length + 1)) :
    search (section_ header (b :: bs)) content = none := by
  refine search_noheader fun a body hf m t e => ?_
  refine fails_lazy fun m' t' e' => fails_lit ?_
  rintro rest rfl
  refine fields_fails b bs rest fun vs hv => ?_
  exact h a body hf (m ++ m') rest (by rw [e, e']; simp [cd]) vs hv
end sections

theorem section_cases (header content : Str) (n : ℕ) :
    (∃ ws, ws.length = n ∧ Section header content ws) ∨ NoSection header content n := by
  rcases first_header header content with ⟨a, body, hf⟩ | hf
  · rcases first_place [67, 68] (fun t => ∃ vs, vs.length = n ∧ Numbers vs t) body with
      ⟨rest, hr⟩ | hr
    · obtain ⟨ws, hl, hn⟩ := id hr.choose_spec.2.1
      exact .inl ⟨ws, hl, a, body, rest, hf, by rw [hl]; exact hr, hn⟩
    · refine .inr fun a' body' hf' m rest e vs hv hn => ?_
      obtain ⟨k, hk⟩ := suffix_of (hf.1.symm.trans hf'.1) (hf.2 a' body' hf'.1)
      exact hr (k ++ m) rest (by rw [hk, e]; simp) ⟨vs, hv, hn⟩
  · exact .inr fun a body h => absurd h.1 (hf a body)

theorem sp_digit {c : ℕ} (r : Str) (b : Re) (h : Blank c) : Fails (.seq (.plus digit) b) (c :: r) :=
  fails_start digit_iff b fun h' => digit_notBlank h' h
theorem digit_sp {c : ℕ} (r : Str) (b : Re) (h : IsDigit c) : Fails (.seq (.plus space) b) (c :: r) :=
  fails_start space_iff b fun h' => digit_notBlank h h'
theorem word_sp {c : ℕ} (r : Str) (b : Re) (h : ¬ Blank c) : Fails (.seq (.plus space) b) (c :: r) :=
  fails_start space_iff b h
theorem sp_word {c : ℕ} (r : Str) (b : Re) (h : Blank c) :
    Fails (.seq (.plus nonSpace) b) (c :: r) :=
  fails_start nonSpace_iff b fun h' => h' h
theorem sp_lit {c : ℕ} (r : Str) (k : ℕ) (ks : Str) (b : Re) (hk : ¬ Blank k) (h : Blank c) :
    Fails (.seq (lit (k :: ks)) b) (c :: r) :=
  lit_no b fun rest e => by
    simp only [List.cons_append, List.cons.injEq] at e
    exact hk (e.1 ▸ h)

theorem area_head {t w : Str} (h : AreaRow t w) :
    ∃ r, Head (.seq (.plus digit) (field true)) t [w] r := by
  obtain ⟨d, rest, rfl, hd, hn⟩ := h
  obtain ⟨r, hr⟩ := fields_head true [] [w] rest rfl hn
  exact ⟨r, head_plus digit_iff (fun c r hc => digit_sp r _ hc) hd hr⟩

theorem area_fails {t : Str} (h : ¬ ∃ v, AreaRow t v) :
    Fails (.seq (.plus digit) (field true)) t := by
  refine fails_plus digit_iff (fun c r hc => digit_sp r _ hc) fun d rest e hd => ?_
  refine fields_fails true [] rest fun ws hl hn => ?_
  obtain ⟨w, rfl⟩ := List.length_eq_one_iff.1 hl
  exact h ⟨w, d, rest, e, hd, hn⟩

theorem area_found {content w : Str} (h : Area content w) :
    ∃ x, search wingPattern content = some ⟨x, [w]⟩ := by
  obtain ⟨a, body, rest, h1, h2, h3⟩ := h
  obtain ⟨r, hr⟩ := area_head h3
  exact search_header h1 (head_place (fun t ht => area_fails ht) h2 hr)

theorem area_missing {content : Str} (h : ∀ w, ¬ Area content w) :
    search wingPattern content = none := by
  refine search_noheader fun a body hf m t e => ?_
  refine fails_lazy fun m' t' e' => fails_lit ?_
  rintro rest rfl
  refine area_fails ?_
  rintro ⟨v, hv⟩
  rcases first_place [67, 68, 32] (fun t => ∃ v, AreaRow t v) body with ⟨rest', hr⟩ | hr
  · obtain ⟨w, hw⟩ := id hr.choose_spec.2.1
    exact h w ⟨a, body, rest', hf, hr, hw⟩
  · exact hr (m ++ m') rest (by rw [e, e']; simp) ⟨v, hv⟩

section drag
variable {k : ℕ} {ks : Str} (hk : ¬ Blank k)
include hk

theorem drag_head {t x y z : Str} (h : DragRow (k :: ks) t x y z) :
    ∃ r, Head (.seq (.plus space) (.seq (.plus digit) (.seq (.plus space) (.seq (lit (k :: ks))
    (.seq (.plus space) (.seq (.plus nonSpace) (fields [false, true, true]))))))) t [y, z] r := by
  obtain ⟨r1, r2, ⟨b, d, b', rfl, hb, hd, hb'⟩, ⟨b2, w, rfl, hb2, hw⟩, hn⟩ := h
  obtain ⟨r, hr⟩ := fields_head false [true, true] [x, y, z] r2 rfl hn
  refine ⟨r, head_plus space_iff (fun c r hc => sp_digit r _ hc) hb ?_⟩
  refine head_plus digit_iff (fun c r hc => digit_sp r _ hc) hd ?_
  refine head_plus space_iff (fun c r hc => sp_lit r _ _ _ hk hc) hb' ?_
  refine head_lit (head_plus space_iff (fun c r hc => sp_word r _ hc) hb2 ?_)
  exact head_plus nonSpace_iff (fun c r hc => fields_start hc r _ _) hw hr

theorem drag_fails {t : Str} (h : ¬ ∃ x y z, DragRow (k :: ks) t x y z) :
    Fails (.seq (.plus space) (.seq (.plus digit) (.seq (.plus space) (.seq (lit (k :: ks))
    (.seq (.plus space) (.seq (.plus nonSpace) (fields [false, true, true]))))))) t := by
  refine fails_plus space_iff (fun c r hc => sp_digit r _ hc) fun b r1 e1 hb => ?_
  refine fails_plus digit_iff (fun c r hc => digit_sp r _ hc) fun d r2 e2 hd => ?_
  refine fails_plus space_iff (fun c r hc => sp_lit r _ _ _ hk hc) fun b' r3 e3 hb' => ?_
  refine fails_lit fun r4 e4 => ?_
  refine fails_plus space_iff (fun c r hc => sp_word r _ hc) fun b2 r5 e5 hb2 => ?_
  refine fails_plus nonSpace_iff (fun c r hc => fields_start hc r _ _) fun w r6 e6 hw => ?_
  refine fields_fails false [true, true] r6 fun ws hl hn => ?_
  match ws, hl, hn with
  | [x, y, z], _, hn =>
    subst e6 e5 e4 e3 e2 e1
    exact h ⟨x, y, z, _, _, ⟨b, d, b', rfl, hb, hd, hb'⟩, ⟨b2, w, rfl, hb2, hw⟩, hn⟩

theorem drag_found {content y z : Str} (h : Drag (k :: ks) content y z) :
    ∃ x, search (dragPattern (k :: ks)) content = some ⟨x, [y, z]⟩ := by
  obtain ⟨rest, x, h1, h2⟩ := h
  obtain ⟨r, hr⟩ := drag_head hk h2
  exact search_place (fun t ht => drag_fails hk ht) h1 hr

theorem drag_missing {content : Str} (h : NoDrag (k :: ks) content) :
    search (dragPattern (k :: ks)) content = none :=
  search_noplace fun m t e => drag_fails hk fun ⟨x, y, z, hd⟩ => h m t e x y z hd

omit hk in
theorem drag_cases (content : Str) : (∃ y z, Drag (k :: ks) content y z) ∨ NoDrag (k :: ks) content := by
  rcases first_place [67, 68] (fun t => ∃ x y z, DragRow (k :: ks) t x y z) content with
    ⟨rest, hr⟩ | hr
  · obtain ⟨x, y, z, hw⟩ := id hr.choose_spec.2.1
    exact .inl ⟨y, z, rest, x, hr, hw⟩
  · exact .inr fun m rest e x y z hd => hr m rest e ⟨x, y, z, hd⟩
end drag

theorem gear_head {t w : Str} (h : GearRow t w) :
    ∃ r, Head (.seq (.plus digit) (.seq (.plus space)
      (.seq (lit [68, 79, 87, 78]) (field true)))) t [w] r := by
  obtain ⟨d, b, rest, rfl, hd, hb, hn⟩ := h
  obtain ⟨r, hr⟩ := fields_head true [] [w] rest rfl hn
  refine ⟨r, head_plus digit_iff (fun c r hc => digit_sp r _ hc) hd ?_⟩
  refine head_plus space_iff (fun c r hc => sp_lit r _ _ _ ?_ hc) hb (head_lit hr)
  simp [Blank]

theorem gear_fails {t : Str} (h : ¬ ∃ v, GearRow t v) :
    Fails (.seq (.plus digit) (.seq (.plus space)
      (.seq (lit [68, 79, 87, 78]) (field true)))) t := by
  refine fails_plus digit_iff (fun c r hc => digit_sp r _ hc) fun d r1 e1 hd => ?_
  refine fails_plus space_iff (fun c r hc => sp_lit r _ _ _ (by simp [Blank]) hc)
    fun b r2 e2 hb => ?_
  refine fails_lit fun r3 e3 => ?_
  refine fields_fails true [] r3 fun ws hl hn => ?_
  obtain ⟨w, rfl⟩ := List.length_eq_one_iff.1 hl
  subst e3 e2 e1
  exact h ⟨w, d, b, r3, rfl, hd, hb, hn⟩

theorem gear_found {content w : Str} (h : Gear content w) :
    ∃ x, search gearPattern content = some ⟨x, [w]⟩ := by
  obtain ⟨rest, h1, h2⟩ := h
  obtain ⟨r, hr⟩ := gear_head h2
  exact search_place (fun t ht => gear_fails ht) h1 hr

theorem gear_missing {content : Str} (h : ∀ w, ¬ Gear content w) :
    search gearPattern content = none := by
  refine search_noplace fun m t e => gear_fails fun ⟨v, hv⟩ => ?_
  rcases first_place [67, 68, 32] (fun t => ∃ v, GearRow t v) content with ⟨rest', hr⟩ | hr
  · obtain ⟨w, hw⟩ := id hr.choose_spec.2.1
    exact h w ⟨rest', hr, hw⟩
  · exact hr m t e ⟨v, hv⟩

/-! ### Words to numbers -/

theorem floats_ok {α : Type} {float : Str → Option α} {ws : List Str} {xs : List α}
    (h : ws.map float = xs.map some) : floats float ws = .ok xs := by
  induction ws generalizing xs with
  | nil => cases xs <;> simp_all [floats]
  | cons w ws ih =>
    cases xs with
    | nil => simp at h
    | cons x xs =>
      simp only [List.map_cons, List.cons.injEq] at h
      simp [floats, h.1, ih h.2]

theorem floats_error {α : Type} {float : Str → Option α} {ws : List Str}
    (h : ∃ w ∈ ws, float w = none) : floats float ws = .error .valueError := by
  induction ws with
  | nil => simp at h
  | cons w ws ih =>
    cases hw : float w with
    | none => simp [floats, hw]
    | some x =>
      obtain ⟨v, hv, hf⟩ := h
      rcases List.mem_cons.1 hv with rfl | hv
      · rw [hw] at hf; cases hf
      · simp [floats, hw, ih ⟨v, hv, hf⟩]

theorem floats_cases {α : Type} (float : Str → Option α) (ws : List Str) :
    (∃ xs : List α, ws.map float = xs.map some) ∨ ∃ w ∈ ws, float w = none := by
  induction ws with
  | nil => exact .inl ⟨[], rfl⟩
  | cons w ws ih =>
    cases hw : float w with
    | none => exact .inr ⟨w, by simp, hw⟩
    | some x =>
      rcases ih with ⟨xs, h⟩ | ⟨v, hv, h⟩
      · exact .inl ⟨x :: xs, by simp [hw, h]⟩
      · exact .inr ⟨v, by simp [hv], h⟩

/-! ### The engine -/

theorem search_congr {r r' : Re} (h : ∀ x, run r x = run r' x) (s : Str) :
    search r s = search r' s := by
  unfold search
  generalize (none : Option ℕ) = pv
  have hm : ∀ pv s, matchAt r pv s = matchAt r' pv s := fun pv s => by simp [matchAt, h]
  induction s generalizing pv with
  | nil => exact hm pv []
  | cons c s ih => simp only [searchFrom, hm, ih]

theorem hasWord_iff (w t : Str) : hasWord w t = true ↔ OccursCI w t := by
  unfold hasWord
  rw [search_congr (run_litCI w)]
  constructor
  · intro h
    by_contra hn
    rw [search_none (fun a u e => litCI_no _ fun e' rest he hs =>
      hn ⟨a, e', rest, by rw [e, he]; simp, hs⟩)] at h
    simp at h
  · rintro ⟨a, m, b, e, hs⟩
    rcases first_split (fun u => ∃ m b, u = m ++ b ∧ SameText w m) t with
      ⟨a', u, e', ⟨m', b', rfl, hs'⟩, hmin⟩ | h
    · subst e'
      have hh : Head (.seq (litCI w) .eps) (m' ++ b') [] b' :=
        head_litCI hs' fun pv caps => ⟨pv, [], by simp [run]⟩
      rw [search_head a' _ hh]
      · rfl
      · intro a'' t' e'' hl
        refine litCI_no _ fun e3 rest h3 hs3 => ?_
        exact absurd (hmin a'' t' e'' ⟨e3, rest, h3, hs3⟩) (by omega)
    · exact absurd ⟨m, b, rfl, hs⟩ (h a (m ++ b) (by rw [e]; simp))

theorem decimal_eq (w : Str) : decimal w = value w := by
  unfold decimal value
  induction w using List.reverseRecOn with
  | nil => rfl
  | append_singleton w c ih =>
    rw [List.foldl_append, ih]
    simp [Nat.ofDigits_cons]
    ring

theorem engines_head {t d : Str} (h : Engines t d) : ∃ r, Head enginesPattern t [d] r := by
  obtain ⟨b, e, rest, rfl, hd, hb, hs⟩ := h
  have hl : ∃ r, Head (.opt (litCI [115])) rest [] r := by
    cases rest with
    | nil => exact ⟨[], fun pv caps => ⟨pv, [], by simp [run, litCI]⟩⟩
    | cons c r =>
      by_cases hc : loC c = loC 115
      · exact ⟨r, fun pv caps => ⟨some c, [⟨pv, c :: r, caps⟩], by simp [run, litCI, hc]⟩⟩
      · exact ⟨c :: r, fun pv caps => ⟨pv, [], by simp [run, litCI, hc]⟩⟩
  obtain ⟨r, hr⟩ := hl
  refine ⟨r, head_capplus digit_iff (fun c r hc => digit_sp r _ hc) hd ?_⟩
  refine head_plus space_iff ?_ hb (head_litCI hs hr)
  intro c r hc
  refine litCI_no _ fun e rest he hs' => ?_
  cases hs' with
  | cons h1 _ =>
    simp only [List.cons_append, List.cons.injEq] at he
    rw [← he.1] at h1
    unfold SameLetter at h1; unfold Blank at hc
    simp only [List.mem_cons, List.not_mem_nil, or_false] at hc
    omega

theorem engines_fails {t : Str} (h : ∀ d, ¬ Engines t d) : Fails enginesPattern t := by
  refine fails_capplus digit_iff (fun c r hc => digit_sp r _ hc) fun d r1 e1 hd => ?_
  refine fails_plus space_iff ?_ fun b r2 e2 hb => ?_
  · intro c r hc
    refine litCI_no _ fun e rest he hs' => ?_
    cases hs' with
    | cons h1 _ =>
      simp only [List.cons_append, List.cons.injEq] at he
      rw [← he.1] at h1
      unfold SameLetter at h1; unfold Blank at hc
      simp only [List.mem_cons, List.not_mem_nil, or_false] at hc
      omega
  · refine litCI_no _ fun e rest he hs' => ?_
    subst he e2 e1
    exact h d ⟨b, e, rest, rfl, hd, hb, hs'⟩

theorem engineNumber_found {a t d : Str} (h : Engines t d)
    (hm : ∀ a' t' d', a ++ t = a' ++ t' → Engines t' d' → a.length ≤ a'.length) :
    engineNumber (a ++ t) = some (value d) := by
  obtain ⟨r, hr⟩ := engines_head h
  unfold engineNumber
  rw [search_head a t hr]
  · simp [decimal_eq]
  · intro a' t' e hl
    exact engines_fails fun d' h' => absurd (hm a' t' d' e h') (by omega)

theorem engineNumber_missing {s : Str} (h : ∀ a t d, s = a ++ t → ¬ Engines t d) :
    engineNumber s = none := by
  unfold engineNumber
  rw [search_none fun a t e => engines_fails fun d => h a t d e]
  rfl

/-- The rest of the pattern after `CD`. -/
theorem cdline_head {b line rest : Str} (hb : Run Blank b (line ++ rest)) (hl : ∀ c ∈ line, c ≠ 10)
    (hr : ∀ c, rest.head? = some c → c = 10) :
    Head (.seq (.plus space) (.seq (.star dot) .eolM)) (b ++ (line ++ rest)) [] rest := by
  intro pv caps
  obtain ⟨pv1, l1, e1, _⟩ := plus_run space_iff hb pv caps
  obtain ⟨pv2, l2, e2, _⟩ := starEnds_run (p := dot) (P := fun c => c ≠ 10)
    (fun c => by simp [dot]) line rest hl (fun c hc => by simpa using hr c hc) caps pv1
  have he : rest = [] ∨ rest.head? = some 10 := by
    cases rest with
    | nil => exact .inl rfl
    | cons c r => exact .inr (by rw [← hr c rfl]; rfl)
  rw [run, e1, List.flatMap_cons]
  simp only [run, e2, List.flatMap_cons]
  rw [if_pos he]
  exact ⟨pv2, _, by simp; rfl⟩

theorem cdline_fails {t : Str} (h : ∀ c, t.head? = some c → ¬ Blank c) :
    Fails (.seq (.plus space) (.seq (.star dot) .eolM)) t := by
  intro pv caps
  rw [run, plus_no space_iff h]; rfl

theorem or_ten {a : Str} {x : ℕ} (hx : x ≠ 10) :
    (a.getLast?.or (some x) = none ∨ a.getLast?.or (some x) = some 10) ↔ ∃ m, a = m ++ [10] := by
  rcases List.eq_nil_or_concat a with rfl | ⟨m, c, rfl⟩
  · simp [hx]
  · simp

theorem actype_found {content block : Str} (h : TypeBlock content block) :
    ∃ gs, search actypePattern content = some ⟨block, gs⟩ := by
  obtain ⟨a, body, m, b, line, rest, ⟨rfl, hmin⟩, rfl, hb, hl, hr, hfirst, rfl⟩ := h
  have key : Head actypePattern (actype ++ (m ++ ([10, 67, 68] ++ (b ++ (line ++ rest))))) [] rest := by
    intro pv caps
    unfold actypePattern
    rw [lit_only]
    have hp : actype.getLast?.or pv = some 101 := rfl
    rw [hp]
    have e1 : m ++ ([10, 67, 68] ++ (b ++ (line ++ rest))) =
        (m ++ [10]) ++ (cd ++ (b ++ (line ++ rest))) := by simp [cd]
    rw [e1]
    obtain ⟨l, l', e, hl'⟩ := lazyEnds_split (some 101) caps (m ++ [10]) (cd ++ (b ++ (line ++ rest)))
    rw [run, run, e, List.flatMap_append, List.flatMap_cons]
    have h0 : l.flatMap (run (.seq .bol (.seq (lit cd) (.seq (.plus space)
        (.seq (.star dot) .eolM))))) = [] := by
      rw [List.flatMap_eq_nil_iff]
      rintro ⟨pvy, ry, cy⟩ hy
      obtain ⟨_, a', h2, h3, h4⟩ := hl' _ hy
      simp only at h2 h4
      subst h4
      rw [run, run]
      split
      · rename_i hbol
        obtain ⟨m', rfl⟩ := (or_ten (by decide)).1 hbol
        simp only [List.flatMap_cons, List.flatMap_nil, List.append_nil]
        refine fails_lit ?_ _ _
        rintro r rfl
        refine cdline_fails fun c hc hbl => ?_
        cases r with
        | nil => cases hc
        | cons c' r =>
          obtain rfl : c' = c := by simpa using hc
          have := hfirst m' c' r (by rw [e1, h2]; simp [cd]) hbl
          simp at h3
          omega
      · rfl
    rw [h0, List.nil_append]
    have hbol : ((m ++ [10]).getLast?.or (some 101) = none ∨
        (m ++ [10]).getLast?.or (some 101) = some 10) := (or_ten (by decide)).2 ⟨m, rfl⟩
    rw [run, run, if_pos hbol]
    simp only [List.flatMap_cons, List.flatMap_nil, List.append_nil]
    obtain ⟨pv', l2, e2⟩ := head_lit (k := cd) (cdline_head hb hl hr) ((m ++ [10]).getLast?.or (some 101)) caps
    rw [e2]
    exact ⟨pv', _, by rw [List.append_nil caps]; rfl⟩
  refine ⟨[], ?_⟩
  have := search_head a _ key ?_
  · refine this.trans ?_
    congr 2
    rw [show actype ++ (m ++ ([10, 67, 68] ++ (b ++ (line ++ rest)))) =
      ([65, 99, 116, 121, 112, 101] ++ (m ++ ([10, 67, 68] ++ (b ++ line)))) ++ rest by simp [actype]]
    rw [List.length_append, Nat.add_sub_cancel, List.take_left']
    rfl
  · intro a' t' e hl
    refine fails_lit ?_
    rintro rest' rfl
    exact absurd (hmin a' rest' e) (by omega)

theorem actype_missing {content : Str} (h : NoTypeBlock content) :
    search actypePattern content = none := by
  refine search_none fun a t e => ?_
  intro pv caps
  unfold actypePattern
  by_cases ht : ∃ body', t = actype ++ body'
  · obtain ⟨body', rfl⟩ := ht
    rcases first_header actype content with ⟨a0, body, hf⟩ | hf
    · obtain ⟨k, hk⟩ := suffix_of (hf.1.symm.trans e) (hf.2 a body' e)
      rw [lit_only]
      have hp : actype.getLast?.or pv = some 101 := rfl
      rw [hp, run, run, List.flatMap_eq_nil_iff]
      rintro ⟨pvy, ry, cy⟩ hy
      obtain ⟨_, a', h2, h4⟩ := lazyEnds_mem (some 101) caps body' _ hy
      simp only at h2 h4
      subst h4
      rw [run, run]
      split
      · rename_i hbol
        obtain ⟨m', rfl⟩ := (or_ten (by decide)).1 hbol
        simp only [List.flatMap_cons, List.flatMap_nil, List.append_nil]
        refine fails_lit ?_ _ _
        rintro r rfl
        refine cdline_fails fun c hc hbl => ?_
        cases r with
        | nil => cases hc
        | cons c' r =>
          obtain rfl : c' = c := by simpa using hc
          exact h a0 body hf (k ++ m') c' r (by rw [hk, h2]; simp [cd]) hbl
      · rfl
    · exact absurd e (hf a body')
  · exact lit_no _ (fun rest e' => ht ⟨rest, e'⟩) pv caps

end Verif.Bada3Parse
