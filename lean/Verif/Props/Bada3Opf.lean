import Verif.Lemmas.Bada3Parse
import Mathlib.Data.Real.Basic

/-!
# C105, C106: reading a BADA3 OPF file
-/

namespace Verif.Props
open Verif.Tables Verif.Bada3Parse Verif.Spec Verif.Spec.Opf Verif.Regex

theorem bind_ok {β γ : Type} {x : Except PyError β} {f : β → Except PyError γ} {r : γ}
    (h : (x >>= f) = .ok r) : ∃ a, x = .ok a ∧ f a = .ok r := by
  cases x with
  | error e => cases h
  | ok a => exact ⟨a, rfl, h⟩

theorem select_values {α : Type} {float : Str → Option α} {content : Str} {b : Bool}
    {bs : List Bool} {header : Str} {name : String} (hn : header = chars name) {n skip take : ℕ}
    {default : α} {xs : List α}
    (h : getFloats float content (section_ header (b :: bs)) take default = .ok xs)
    (hsel : ∀ ws : List Str, ws.length = n → select (b :: bs) ws = (ws.drop skip).take take)
    (hl : n = bs.length + 1) :
    Values float name content n skip take default xs := by
  subst hn
  unfold getFloats at h
  rcases section_cases (chars name) content n with ⟨ws, hw, hs⟩ | hs
  · obtain ⟨w, e⟩ := section_found b bs hs (hw.trans hl)
    rw [e] at h
    refine .inl ⟨ws, hw, hs, ?_⟩
    simp only at h
    rw [hsel ws hw] at h
    rcases floats_cases float ((ws.drop skip).take take) with ⟨ys, hy⟩ | hy
    · rw [floats_ok hy] at h
      rw [hy, Except.ok.inj h]
    · rw [floats_error hy] at h; cases h
  · rw [section_missing b bs (hl ▸ hs)] at h
    exact .inr ⟨hs, (Except.ok.inj h).symm⟩

theorem drag_values {α : Type} {float : Str → Option α} {content : Str} {zero : α} {k : ℕ} {ks : Str}
    (hk : ¬ Blank k) {name : String} (hn : k :: ks = chars name) {xs : List α}
    (h : getDrag float zero content (k :: ks) = .ok xs) :
    ∃ x y, xs = [x, y] ∧ DragValues float zero name content x y := by
  unfold getDrag getFloats at h
  unfold DragValues
  rw [← hn]
  rcases drag_cases (k := k) (ks := ks) content with ⟨c0, c2, hd⟩ | hd
  · obtain ⟨w, e⟩ := drag_found hk hd
    rw [e] at h
    simp only at h
    rcases floats_cases float [c0, c2] with ⟨ys, hy⟩ | hy
    · rw [floats_ok hy] at h
      obtain rfl := Except.ok.inj h
      have hl : ys.length = 2 := by simpa using (congrArg List.length hy).symm
      match ys, hl, hy with
      | [x, y], _, hy =>
        simp only [List.map_cons, List.map_nil, List.cons.injEq, and_true] at hy
        exact ⟨x, y, rfl, .inl ⟨c0, c2, hd, hy.1, hy.2⟩⟩
    · rw [floats_error hy] at h; cases h
  · rw [drag_missing hk hd] at h
    obtain rfl := Except.ok.inj h
    exact ⟨zero, zero, rfl, .inr ⟨hd, rfl, rfl⟩⟩

theorem values_length {α : Type} {float : Str → Option α} {name content n skip take} {d : α} {xs}
    (h : Values float name content n skip take d xs) (hn : skip + take ≤ n) : xs.length = take := by
  rcases h with ⟨ws, hl, _, h⟩ | ⟨_, rfl⟩
  · have := congrArg List.length h
    simp only [List.length_map, List.length_take, List.length_drop] at this
    omega
  · simp

theorem s5 : ∀ ws : List Str, ws.length = 5 →
    select [true, true, true, true, false] ws = (ws.drop 0).take 4
  | [_, _, _, _, _], _ => rfl
theorem s53 : ∀ ws : List Str, ws.length = 5 →
    select [true, true, true, false, false] ws = (ws.drop 0).take 3
  | [_, _, _, _, _], _ => rfl
theorem s55 : ∀ ws : List Str, ws.length = 5 →
    select [true, true, true, true, true] ws = (ws.drop 0).take 5
  | [_, _, _, _, _], _ => rfl
theorem s2 : ∀ ws : List Str, ws.length = 2 → select [true, true] ws = (ws.drop 0).take 2
  | [_, _], _ => rfl
theorem s1 : ∀ ws : List Str, ws.length = 1 → select [true] ws = (ws.drop 0).take 1
  | [_], _ => rfl
theorem s3 : ∀ ws : List Str, ws.length = 3 →
    select [false, false, true] ws = (ws.drop 2).take 1
  | [_, _, _], _ => rfl

/-- C105: where every number of the result comes from. -/
theorem C105_opf (float : Str → Option ℝ) (content : Str) (r : Opf ℝ)
    (h : parseOpf float content = .ok r) :
    (∃ m₁ m₂ m₃ m₄, Values float "Mass (t)" content 5 0 4 0 [m₁, m₂, m₃, m₄] ∧
      r.mref = 1000 * m₁ ∧ r.oew = 1000 * m₂ ∧ r.mtow = 1000 * m₃ ∧ r.mpl = 1000 * m₄) ∧
    (∃ v m c, Values float "Flight envelope" content 5 0 3 0 [v, m, c] ∧
      r.vmo = v ∧ r.mmo = m ∧ r.ceiling = c * (3048 / 10000)) ∧
    ((∃ w, Area content w ∧ float w = some r.area) ∨ ((∀ w, ¬ Area content w) ∧ r.area = 0)) ∧
    (∃ a b c d e a' b' c' d' e', r.cd0 = [a, b, c, d, e] ∧ r.cd2 = [a', b', c', d', e'] ∧
      DragValues float 0 "CR" content a a' ∧ DragValues float 0 "IC" content b b' ∧
      DragValues float 0 "TO" content c c' ∧ DragValues float 0 "AP" content d d' ∧
      DragValues float 0 "LD" content e e') ∧
    ((∃ w, Gear content w ∧ float w = some r.cd0Lgear) ∨
      ((∀ w, ¬ Gear content w) ∧ r.cd0Lgear = 0)) ∧
    Values float "Max climb thrust coefficients" content 5 0 5 0 r.ct ∧
    (∃ x, Values float "Desc(low)" content 5 0 5 0
      [r.ctDesLow, r.ctDesHigh, x, r.ctDesApp, r.ctDesLd]) ∧
    Values float "Thrust Specific Fuel Consumption Coefficients" content 2 0 2 0 r.cf ∧
    Values float "Descent Fuel Flow Coefficients" content 2 0 2 0 r.cfDes ∧
    Values float "Cruise Corr" content 1 0 1 1 [r.cfCrz] ∧
    Values float "Desc level" content 3 2 1 8000 [r.hpDes] ∧
    ∃ g₁ g₂, Values float "Ground" content 5 0 4 0 [g₁, g₂, r.span, r.length] := by
  unfold parseOpf at h
  obtain ⟨mass, hmass, h⟩ := bind_ok h
  obtain ⟨env, henv, h⟩ := bind_ok h
  obtain ⟨wing, hwing, h⟩ := bind_ok h
  obtain ⟨cr, hcr, h⟩ := bind_ok h
  obtain ⟨ic, hic, h⟩ := bind_ok h
  obtain ⟨tko, htko, h⟩ := bind_ok h
  obtain ⟨ap, hap, h⟩ := bind_ok h
  obtain ⟨ld, hld, h⟩ := bind_ok h
  obtain ⟨gear, hgear, h⟩ := bind_ok h
  obtain ⟨ct, hct, h⟩ := bind_ok h
  obtain ⟨des, hdes, h⟩ := bind_ok h
  obtain ⟨cf, hcf, h⟩ := bind_ok h
  obtain ⟨cfd, hcfd, h⟩ := bind_ok h
  obtain ⟨cfc, hcfc, h⟩ := bind_ok h
  obtain ⟨hp, hhp, h⟩ := bind_ok h
  obtain ⟨gr, hgr, h⟩ := bind_ok h
  obtain rfl := Except.ok.inj h
  have vmass := select_values (name := "Mass (t)") (by decide) hmass s5 rfl
  have venv := select_values (name := "Flight envelope") (by decide) henv s53 rfl
  have vct := select_values (name := "Max climb thrust coefficients") (by decide) hct s55 rfl
  have vdes := select_values (name := "Desc(low)") (by decide) hdes s55 rfl
  have vcf := select_values (name := "Thrust Specific Fuel Consumption Coefficients") (by decide) hcf s2 rfl
  have vcfd := select_values (name := "Descent Fuel Flow Coefficients") (by decide) hcfd s2 rfl
  have vcfc := select_values (name := "Cruise Corr") (by decide) hcfc s1 rfl
  have vhp := select_values (name := "Desc level") (by decide) hhp s3 rfl
  have vgr := select_values (name := "Ground") (by decide) hgr s5 rfl
  have lmass := values_length vmass (by decide)
  have lenv := values_length venv (by decide)
  have ldes := values_length vdes (by decide)
  have lcfc := values_length vcfc (by decide)
  have lhp := values_length vhp (by decide)
  have lgr := values_length vgr (by decide)
  have nb : ∀ k ∈ [67, 73, 84, 65, 76], ¬ Blank k := by simp [Blank]
  obtain ⟨a, a', rfl, dcr⟩ := drag_values (nb _ (by simp)) (name := "CR") (by decide) hcr
  obtain ⟨b, b', rfl, dic⟩ := drag_values (nb _ (by simp)) (name := "IC") (by decide) hic
  obtain ⟨c, c', rfl, dtko⟩ := drag_values (nb _ (by simp)) (name := "TO") (by decide) htko
  obtain ⟨d, d', rfl, dap⟩ := drag_values (nb _ (by simp)) (name := "AP") (by decide) hap
  obtain ⟨e, e', rfl, dld⟩ := drag_values (nb _ (by simp)) (name := "LD") (by decide) hld
  obtain ⟨m₁, m₂, m₃, m₄, rfl⟩ : ∃ a b c d, mass = [a, b, c, d] := by
    clear * - lmass
    match mass, lmass with | [a, b, c, d], _ => exact ⟨a, b, c, d, rfl⟩
  obtain ⟨v, m, ce, rfl⟩ := List.length_eq_three.1 lenv
  obtain ⟨x₁, x₂, x₃, x₄, x₅, rfl⟩ : ∃ a b c d e, des = [a, b, c, d, e] := by
    clear * - ldes
    match des, ldes with | [a, b, c, d, e], _ => exact ⟨a, b, c, d, e, rfl⟩
  obtain ⟨cc, rfl⟩ := List.length_eq_one_iff.1 lcfc
  obtain ⟨hh, rfl⟩ := List.length_eq_one_iff.1 lhp
  obtain ⟨g₁, g₂, g₃, g₄, rfl⟩ : ∃ a b c d, gr = [a, b, c, d] := by
    clear * - lgr
    match gr, lgr with | [a, b, c, d], _ => exact ⟨a, b, c, d, rfl⟩
  refine ⟨⟨m₁, m₂, m₃, m₄, vmass, ?_, ?_, ?_, ?_⟩, ⟨v, m, ce, venv, rfl, rfl, ?_⟩, ?_,
    ⟨a, b, c, d, e, a', b', c', d', e', rfl, rfl, dcr, dic, dtko, dap, dld⟩, ?_, vct,
    ⟨x₃, vdes⟩, vcf, vcfd, vcfc, vhp, ⟨g₁, g₂, vgr⟩⟩
  · show m₁ * 1e3 = _; norm_num; ring
  · show m₂ * 1e3 = _; norm_num; ring
  · show m₃ * 1e3 = _; norm_num; ring
  · show m₄ * 1e3 = _; norm_num; ring
  · show ce * 0.3048 = _; norm_num
  · show (∃ w, Area content w ∧ float w = some (wing.getD 0 0)) ∨ _ ∧ wing.getD 0 0 = 0
    unfold getFloats at hwing
    by_cases hA : ∃ w, Area content w
    · obtain ⟨w, hw⟩ := hA
      obtain ⟨x, e⟩ := area_found hw
      rw [e] at hwing
      cases hf : float w with
      | none => simp [floats, hf] at hwing
      | some y =>
        simp [floats, hf] at hwing
        exact .inl ⟨w, hw, by rw [← hwing]; simpa using hf⟩
    · have hA' : ∀ w, ¬ Area content w := fun w hw => hA ⟨w, hw⟩
      rw [area_missing hA'] at hwing
      obtain rfl := Except.ok.inj hwing
      exact .inr ⟨hA', rfl⟩
  · show (∃ w, Gear content w ∧ float w = some (gear.getD 0 0)) ∨ _ ∧ gear.getD 0 0 = 0
    unfold getFloats at hgear
    by_cases hA : ∃ w, Gear content w
    · obtain ⟨w, hw⟩ := hA
      obtain ⟨x, e⟩ := gear_found hw
      rw [e] at hgear
      cases hf : float w with
      | none => simp [floats, hf] at hgear
      | some y =>
        simp [floats, hf] at hgear
        exact .inl ⟨w, hw, by rw [← hgear]; simpa using hf⟩
    · have hA' : ∀ w, ¬ Gear content w := fun w hw => hA ⟨w, hw⟩
      rw [gear_missing hA'] at hgear
      obtain rfl := Except.ok.inj hgear
      exact .inr ⟨hA', rfl⟩

/-- A word of number characters that occurs in the text and that `float` rejects. -/
def BadWord (float : Str → Option ℝ) (content : Str) : Prop :=
  ∃ w, w ≠ [] ∧ (∀ c ∈ w, NumChar c) ∧ w <:+: content ∧ float w = none

theorem numbers_infix : ∀ {ws : List Str} {s : Str}, Numbers ws s →
    ∀ w ∈ ws, w ≠ [] ∧ (∀ c ∈ w, NumChar c) ∧ w <:+: s
  | w :: ws, _, ⟨b, rest, rfl, _, hw, hn⟩, v, hv => by
    rcases List.mem_cons.1 hv with rfl | hv
    · exact ⟨hw.1, hw.2.1, b, rest, by simp⟩
    · obtain ⟨h1, h2, h3⟩ := numbers_infix hn v hv
      exact ⟨h1, h2, h3.trans ⟨b ++ w, [], by simp⟩⟩

theorem select_subset : ∀ (bs : List Bool) (ws : List Str), ∀ w ∈ select bs ws, w ∈ ws
  | [], _, w, h => by simp [select] at h
  | _ :: _, [], w, h => by simp [select] at h
  | b :: bs, v :: ws, w, h => by
    cases b
    · exact List.mem_cons_of_mem _ (select_subset bs ws w (by simpa [select] using h))
    · simp only [select, if_true, List.mem_cons] at h
      rcases h with rfl | h
      · exact List.mem_cons_self
      · exact List.mem_cons_of_mem _ (select_subset bs ws w h)

theorem getFloats_error {float : Str → Option ℝ} {content : Str} {p : Re} {n : ℕ} {d : ℝ} {e : PyError}
    (hp : search p content = none ∨ ∃ x ws, search p content = some ⟨x, ws⟩ ∧
      ∀ w ∈ ws, w ≠ [] ∧ (∀ c ∈ w, NumChar c) ∧ w <:+: content)
    (h : getFloats float content p n d = .error e) : e = .valueError ∧ BadWord float content := by
  unfold getFloats at h
  rcases hp with hp | ⟨x, ws, hp, hw⟩
  · rw [hp] at h; cases h
  · rw [hp] at h
    simp only at h
    rcases floats_cases float ws with ⟨ys, hy⟩ | ⟨w, hm, hy⟩
    · rw [floats_ok hy] at h; cases h
    · rw [floats_error ⟨w, hm, hy⟩] at h
      obtain ⟨h1, h2, h3⟩ := hw w hm
      exact ⟨(Except.error.inj h).symm, w, h1, h2, h3, hy⟩

theorem section_words (header content : Str) (b : Bool) (bs : List Bool) :
    search (section_ header (b :: bs)) content = none ∨
      ∃ x ws, search (section_ header (b :: bs)) content = some ⟨x, ws⟩ ∧
        ∀ w ∈ ws, w ≠ [] ∧ (∀ c ∈ w, NumChar c) ∧ w <:+: content := by
  rcases section_cases header content (bs.length + 1) with ⟨ws, hl, hs⟩ | hs
  · right
    obtain ⟨x, e⟩ := section_found b bs hs hl
    refine ⟨x, _, e, fun w hw => ?_⟩
    obtain ⟨a, body, rest, ⟨rfl, _⟩, ⟨m, rfl, _⟩, hn⟩ := hs
    obtain ⟨h1, h2, h3⟩ := numbers_infix hn w (select_subset _ _ w hw)
    exact ⟨h1, h2, h3.trans ⟨a ++ header ++ m ++ [67, 68], [], by simp⟩⟩
  · exact .inl (section_missing b bs hs)

theorem drag_words (content : Str) (k : ℕ) (ks : Str) (hk : ¬ Blank k) :
    search (dragPattern (k :: ks)) content = none ∨
      ∃ x ws, search (dragPattern (k :: ks)) content = some ⟨x, ws⟩ ∧
        ∀ w ∈ ws, w ≠ [] ∧ (∀ c ∈ w, NumChar c) ∧ w <:+: content := by
  rcases drag_cases (k := k) (ks := ks) content with ⟨y, z, hs⟩ | hs
  · right
    obtain ⟨x, e⟩ := drag_found hk hs
    refine ⟨x, _, e, fun w hw => ?_⟩
    obtain ⟨rest, st, ⟨m, rfl, _⟩, r1, r2, ⟨b, d, b', rfl, _⟩, ⟨b2, v, rfl, _⟩, hn⟩ := hs
    obtain ⟨h1, h2, h3⟩ := numbers_infix hn w (List.mem_cons_of_mem _ hw)
    exact ⟨h1, h2, h3.trans ⟨m ++ [67, 68] ++ b ++ d ++ b' ++ (k :: ks) ++ b2 ++ v, [], by simp⟩⟩
  · exact .inl (drag_missing hk hs)

theorem area_words (content : Str) :
    search wingPattern content = none ∨ ∃ x ws, search wingPattern content = some ⟨x, ws⟩ ∧
        ∀ w ∈ ws, w ≠ [] ∧ (∀ c ∈ w, NumChar c) ∧ w <:+: content := by
  by_cases hA : ∃ w, Area content w
  · right
    obtain ⟨w, hw⟩ := hA
    obtain ⟨x, e⟩ := area_found hw
    refine ⟨x, _, e, fun v hv => ?_⟩
    obtain ⟨a, body, rest, ⟨rfl, _⟩, ⟨m, rfl, _⟩, d, r, rfl, _, hn⟩ := hw
    obtain ⟨h1, h2, h3⟩ := numbers_infix hn v hv
    exact ⟨h1, h2, h3.trans ⟨a ++ [87, 105, 110, 103, 32, 65, 114, 101, 97] ++ m ++ [67, 68, 32] ++ d,
      [], by simp⟩⟩
  · exact .inl (area_missing fun w hw => hA ⟨w, hw⟩)

theorem gear_words (content : Str) :
    search gearPattern content = none ∨ ∃ x ws, search gearPattern content = some ⟨x, ws⟩ ∧
        ∀ w ∈ ws, w ≠ [] ∧ (∀ c ∈ w, NumChar c) ∧ w <:+: content := by
  by_cases hA : ∃ w, Gear content w
  · right
    obtain ⟨w, hw⟩ := hA
    obtain ⟨x, e⟩ := gear_found hw
    refine ⟨x, _, e, fun v hv => ?_⟩
    obtain ⟨rest, ⟨m, rfl, _⟩, d, b, r, rfl, _, _, hn⟩ := hw
    obtain ⟨h1, h2, h3⟩ := numbers_infix hn v hv
    exact ⟨h1, h2, h3.trans ⟨m ++ [67, 68, 32] ++ d ++ b ++ [68, 79, 87, 78], [], by simp⟩⟩
  · exact .inl (gear_missing fun w hw => hA ⟨w, hw⟩)

theorem bind_error {β γ : Type} {x : Except PyError β} {f : β → Except PyError γ} {e : PyError}
    (h : (x >>= f) = .error e) : x = .error e ∨ ∃ a, x = .ok a ∧ f a = .error e := by
  cases x with
  | error e' => left; cases h; rfl
  | ok a => exact .inr ⟨a, rfl, h⟩

/-- C105: parsing fails only with `ValueError`, and only if the text contains a word of number
characters that is not a number. -/
theorem C105_errors (float : Str → Option ℝ) (content : Str) (e : PyError)
    (h : parseOpf float content = .error e) : e = .valueError ∧
      ∃ w, w ≠ [] ∧ (∀ c ∈ w, NumChar c) ∧ w <:+: content ∧ float w = none := by
  have nb : ∀ k ∈ [67, 73, 84, 65, 76], ¬ Blank k := by simp [Blank]
  unfold parseOpf at h
  rcases bind_error h with h | ⟨_, _, h⟩
  · exact getFloats_error (section_words ..) h
  rcases bind_error h with h | ⟨_, _, h⟩
  · exact getFloats_error (section_words ..) h
  rcases bind_error h with h | ⟨_, _, h⟩
  · exact getFloats_error (area_words ..) h
  rcases bind_error h with h | ⟨_, _, h⟩
  · exact getFloats_error (drag_words _ _ _ (nb _ (by simp))) h
  rcases bind_error h with h | ⟨_, _, h⟩
  · exact getFloats_error (drag_words _ _ _ (nb _ (by simp))) h
  rcases bind_error h with h | ⟨_, _, h⟩
  · exact getFloats_error (drag_words _ _ _ (nb _ (by simp))) h
  rcases bind_error h with h | ⟨_, _, h⟩
  · exact getFloats_error (drag_words _ _ _ (nb _ (by simp))) h
  rcases bind_error h with h | ⟨_, _, h⟩
  · exact getFloats_error (drag_words _ _ _ (nb _ (by simp))) h
  rcases bind_error h with h | ⟨_, _, h⟩
  · exact getFloats_error (gear_words ..) h
  rcases bind_error h with h | ⟨_, _, h⟩
  · exact getFloats_error (section_words ..) h
  rcases bind_error h with h | ⟨_, _, h⟩
  · exact getFloats_error (section_words ..) h
  rcases bind_error h with h | ⟨_, _, h⟩
  · exact getFloats_error (section_words ..) h
  rcases bind_error h with h | ⟨_, _, h⟩
  · exact getFloats_error (section_words ..) h
  rcases bind_error h with h | ⟨_, _, h⟩
  · exact getFloats_error (section_words ..) h
  rcases bind_error h with h | ⟨_, _, h⟩
  · exact getFloats_error (section_words ..) h
  rcases bind_error h with h | ⟨_, _, h⟩
  · exact getFloats_error (section_words ..) h
  cases h

/-- C105: a text without any `CD` - an empty file, a wrong file - is accepted without complaint and
yields an aircraft of zero mass with a cruise correction of one and 8000 ft. -/
theorem C105_defaults (float : Str → Option ℝ) (content : Str) (h : Absent (chars "CD") content) :
    parseOpf float content = .ok
      { mtow := 0, mref := 0, oew := 0, mpl := 0, vmo := 0, mmo := 0, ceiling := 0, length := 0,
        area := 0, span := 0, engine := (.turbofan, none), cd0 := [0, 0, 0, 0, 0],
        cd2 := [0, 0, 0, 0, 0], cd0Lgear := 0, ct := [0, 0, 0, 0, 0], ctDesHigh := 0, ctDesLow := 0,
        ctDesApp := 0, ctDesLd := 0, hpDes := 8000, cf := [0, 0], cfDes := [0, 0], cfCrz := 1 } := by
  have h' : ∀ a rest, content ≠ a ++ ([67, 68] ++ rest) := h
  have hs : ∀ header b bs n d, getFloats float content (section_ header (b :: bs)) n d =
      .ok (List.replicate n d) := by
    intro header b bs n d
    unfold getFloats
    rw [section_missing b bs fun a body hf m rest e vs hv hn => h' (a ++ header ++ m) rest (by
      rw [hf.1, e]; simp)]
  have hd : ∀ k ks, ¬ Blank k → getDrag float 0 content (k :: ks) = .ok [0, 0] := by
    intro k ks hk
    unfold getDrag getFloats
    rw [drag_missing hk fun m rest e => absurd e (h' m rest)]
    rfl
  have hw : getFloats float content wingPattern 1 (0 : ℝ) = .ok [0] := by
    unfold getFloats
    rw [area_missing]
    · rfl
    · rintro w ⟨a, body, rest, ⟨e, _⟩, ⟨m, e', _⟩, _⟩
      exact h' (a ++ [87, 105, 110, 103, 32, 65, 114, 101, 97] ++ m) (32 :: rest) (by
        rw [e, e']; simp)
  have hg : getFloats float content gearPattern 1 (0 : ℝ) = .ok [0] := by
    unfold getFloats
    rw [gear_missing]
    · rfl
    · rintro w ⟨rest, ⟨m, e', _⟩, _⟩
      exact h' m (32 :: rest) (by rw [e']; simp)
  have he : engine content = (.turbofan, none) := by
    unfold engine
    rw [actype_missing]
    intro a body hf m c r e
    exact absurd (show content = (a ++ [65, 99, 116, 121, 112, 101] ++ m ++ [10]) ++
      ([67, 68] ++ c :: r) by rw [hf.1, e]; simp) (h' _ _)
  have nb : ∀ k ∈ [67, 73, 84, 65, 76], ¬ Blank k := by simp [Blank]
  unfold parseOpf
  rw [hs, hs, hw, pCR, hd _ _ (nb _ (by simp)), pIC, hd _ _ (nb _ (by simp)), pTO,
    hd _ _ (nb _ (by simp)), pAP, hd _ _ (nb _ (by simp)), pLD, hd _ _ (nb _ (by simp)), hg, hs, hs,
    hs, hs, hs, hs, hs, he]
  show Except.ok _ = Except.ok _
  simp [List.replicate]

/-- An envelope row with two numbers instead of five, followed by the ground section. -/
def spillText : Str := chars "Flight envelope\nCD 250 0.6\nGround\nCD 1 2 3 4 5\n"

/-- C105: a section whose own row has too few numbers silently takes the numbers of a later
section: here the maximum speed comes from the ground section, whatever `float` is. -/
theorem C105_spill (float : Str → Option ℝ) (r : Opf ℝ) (h : parseOpf float spillText = .ok r) :
    float (chars "1") = some r.vmo ∧ float (chars "2") = some r.mmo ∧
      float (chars "3") = some r.span := by
  have h1 : (search (section_ hEnvelope [true, true, true, false, false]) spillText).map (·.groups) =
      some [chars "1", chars "2", chars "3"] := by decide +kernel
  have h2 : (search (section_ hGround [true, true, true, true, false]) spillText).map (·.groups) =
      some [chars "1", chars "2", chars "3", chars "4"] := by decide +kernel
  have key : ∀ {p n ws xs}, (search p spillText).map (·.groups) = some ws →
      getFloats float spillText p n (0 : ℝ) = .ok xs → ws.map float = xs.map some := by
    intro p n ws xs hs hg
    unfold getFloats at hg
    cases hp : search p spillText with
    | none => rw [hp] at hs; cases hs
    | some m =>
      rw [hp] at hs hg
      obtain rfl := Option.some.inj hs
      simp only at hg
      rcases floats_cases float m.groups with ⟨ys, hy⟩ | hy
      · rw [floats_ok hy] at hg
        rw [hy, Except.ok.inj hg]
      · rw [floats_error hy] at hg; cases hg
  unfold parseOpf at h
  obtain ⟨mass, hmass, h⟩ := bind_ok h
  obtain ⟨env, henv, h⟩ := bind_ok h
  obtain ⟨wing, hwing, h⟩ := bind_ok h
  obtain ⟨cr, hcr, h⟩ := bind_ok h
  obtain ⟨ic, hic, h⟩ := bind_ok h
  obtain ⟨tko, htko, h⟩ := bind_ok h
  obtain ⟨ap, hap, h⟩ := bind_ok h
  obtain ⟨ld, hld, h⟩ := bind_ok h
  obtain ⟨gear, hgear, h⟩ := bind_ok h
  obtain ⟨ct, hct, h⟩ := bind_ok h
  obtain ⟨des, hdes, h⟩ := bind_ok h
  obtain ⟨cf, hcf, h⟩ := bind_ok h
  obtain ⟨cfd, hcfd, h⟩ := bind_ok h
  obtain ⟨cfc, hcfc, h⟩ := bind_ok h
  obtain ⟨hp, hhp, h⟩ := bind_ok h
  obtain ⟨gr, hgr, h⟩ := bind_ok h
  have e1 := key h1 henv
  have e2 := key h2 hgr
  obtain rfl := Except.ok.inj h
  have l1 : env.length = 3 := by simpa using (congrArg List.length e1).symm
  have l2 : gr.length = 4 := by simpa using (congrArg List.length e2).symm
  clear * - e1 e2 l1 l2
  match env, l1, gr, l2 with
  | [v, m, c], _, [g1, g2, g3, g4], _ =>
    simp only [List.map_cons, List.map_nil, List.cons.injEq, and_true] at e1 e2
    exact ⟨e1.1, e1.2.1, e2.2.2.1⟩

theorem parse_engine {float : Str → Option ℝ} {content : Str} {r : Opf ℝ}
    (h : parseOpf float content = .ok r) : r.engine = engine content := by
  unfold parseOpf at h
  iterate 16 obtain ⟨_, _, h⟩ := bind_ok h
  obtain rfl := Except.ok.inj h
  rfl

/-- C106: the engine type is decided by the words between the first `Actype` and the end of the
first `CD` line after it, in the order turboprop, jet, piston, electric. -/
theorem C106_engine_type (float : Str → Option ℝ) (content block : Str) (r : Opf ℝ)
    (h : parseOpf float content = .ok r) (hb : TypeBlock content block) :
    (OccursCI (chars "Turboprop") block → r.engine.1 = .turboprop) ∧
    (¬ OccursCI (chars "Turboprop") block → ¬ OccursCI (chars "Jet") block →
      (OccursCI (chars "Piston") block → r.engine.1 = .piston) ∧
      (¬ OccursCI (chars "Piston") block → OccursCI (chars "Electric") block →
        r.engine.1 = .electric)) ∧
    (¬ OccursCI (chars "Turboprop") block → OccursCI (chars "Jet") block →
      r.engine.1 = .turbofan) ∧
    (¬ OccursCI (chars "Turboprop") block → ¬ OccursCI (chars "Piston") block →
      ¬ OccursCI (chars "Electric") block → r.engine.1 = .turbofan) := by
  rw [parse_engine h]
  obtain ⟨gs, e⟩ := actype_found hb
  unfold engine
  rw [e]
  simp only [engineType]
  have h1 := hasWord_iff (chars "Turboprop") block
  have h2 := hasWord_iff (chars "Jet") block
  have h3 := hasWord_iff (chars "Piston") block
  have h4 := hasWord_iff (chars "Electric") block
  have c1 : chars "Turboprop" = [84, 117, 114, 98, 111, 112, 114, 111, 112] := by decide
  have c2 : chars "Jet" = [74, 101, 116] := by decide
  have c3 : chars "Piston" = [80, 105, 115, 116, 111, 110] := by decide
  have c4 : chars "Electric" = [69, 108, 101, 99, 116, 114, 105, 99] := by decide
  rw [← h1, ← h2, ← h3, ← h4, c1, c2, c3, c4]
  refine ⟨fun a => by simp [a], fun a b => ⟨fun c => by simp [a, b, c], fun c d => by simp [a, b, c, d]⟩,
    fun a b => by simp [a, b], fun a c d => by simp [a, c, d]⟩

/-- C106: the number of engines is the first number of that block that stands before `engine`. -/
theorem C106_engine_number (float : Str → Option ℝ) (content block : Str) (r : Opf ℝ)
    (h : parseOpf float content = .ok r) (hb : TypeBlock content block) :
    (∀ a t d, block = a ++ t → Engines t d →
      (∀ a' t' d', block = a' ++ t' → Engines t' d' → a.length ≤ a'.length) →
      r.engine.2 = some (value d)) ∧
    ((∀ a t d, block = a ++ t → ¬ Engines t d) → r.engine.2 = none) := by
  rw [parse_engine h]
  obtain ⟨gs, e⟩ := actype_found hb
  unfold engine
  rw [e]
  simp only
  refine ⟨?_, engineNumber_missing⟩
  rintro a t d rfl hd hm
  exact engineNumber_found hd hm

/-- C106: without such a block the aircraft is a turbofan with an unknown number of engines. -/
theorem C106_no_block (float : Str → Option ℝ) (content : Str) (r : Opf ℝ)
    (h : parseOpf float content = .ok r) (hb : NoTypeBlock content) :
    r.engine = (.turbofan, none) := by
  rw [parse_engine h]
  unfold engine
  rw [actype_missing hb]

/-! ### Cases -/

/-- A section with its row on the next line. -/
theorem case_section : Section (chars "Cruise Corr") (chars "Cruise Corr\nCD 0.95 x\n") [chars "0.95"] := by
  have hn : Numbers [chars "0.95"] (chars " 0.95 x\n") :=
    ⟨[32], chars " x\n", by decide, by simp [Run, Blank, chars], by
      simp [Run, NumChar, IsDigit, chars], trivial⟩
  refine ⟨[], chars "\nCD 0.95 x\n", chars " 0.95 x\n", ⟨by decide, fun _ _ _ => Nat.zero_le _⟩,
    ⟨[10], by decide, ⟨_, rfl, hn⟩, ?_⟩, hn⟩
  rintro (_ | ⟨c, a'⟩) rest' e _
  · simp [chars] at e
  · simp

/-- The text is parsed, and the cruise correction is the value of its word. -/
example : ∃ r, parseOpf (fun w => some (w.length : ℝ)) (chars "Cruise Corr\nCD 0.95 x\n") = .ok r ∧
    r.cfCrz = 4 ∧ r.hpDes = 8000 ∧ r.mtow = 0 := by
  cases h : parseOpf (fun w => some (w.length : ℝ)) (chars "Cruise Corr\nCD 0.95 x\n") with
  | error e =>
    obtain ⟨_, w, _, _, _, hw⟩ := C105_errors _ _ _ h
    cases hw
  | ok r =>
    refine ⟨r, rfl, ?_⟩
    obtain ⟨⟨m1, m2, m3, m4, hm, -, -, hmt, -⟩, -, -, -, -, -, -, -, -, hc, hp, -⟩ := C105_opf _ _ r h
    have no : ∀ (name : String) n, chars name ≠ [] →
        (∀ k ≤ 25, (chars name).isPrefixOf ((chars "Cruise Corr\nCD 0.95 x\n").drop k) = false) →
        NoSection (chars name) (chars "Cruise Corr\nCD 0.95 x\n") n := by
      intro name n h0 hk a body hf
      have hl := congrArg List.length hf.1
      have : (chars name).isPrefixOf ((chars "Cruise Corr\nCD 0.95 x\n").drop a.length) = true := by
        rw [hf.1, List.drop_left]
        simp
      rw [hk] at this
      · cases this
      · have : (chars "Cruise Corr\nCD 0.95 x\n").length = 22 := by decide
        simp only [List.length_append] at hl
        omega
    have yes : ∀ {name : String} {content n skip take} {d : ℝ} {xs},
        Values (fun w => some (w.length : ℝ)) name content n skip take d xs →
        NoSection (chars name) content n → xs = List.replicate take d := by
      rintro name content n skip take d xs (⟨ws, hl, ⟨a, body, rest, h1, ⟨m, e, _⟩, h3⟩, _⟩ | h) hno
      · exact absurd h3 (hno a body h1 m rest e ws hl)
      · exact h.2
    refine ⟨?_, ?_, ?_⟩
    · rcases hc with ⟨ws, hl, hs, hv⟩ | ⟨hno, _⟩
      · obtain ⟨x, e⟩ := section_found true [] hs hl
        obtain ⟨y, e'⟩ := section_found true [] case_section rfl
        rw [e] at e'
        obtain ⟨w, rfl⟩ := List.length_eq_one_iff.1 hl
        simp only [select, if_true, Option.some.injEq, Match.mk.injEq, List.cons.injEq, and_true] at e'
        rw [e'.2] at hv
        simp only [List.drop_zero, List.take_succ_cons, List.take_zero, List.map_cons, List.map_nil,
          List.cons.injEq, Option.some.injEq, and_true] at hv
        rw [← hv]
        simp [chars]
      · obtain ⟨a, body, rest, h1, ⟨m, e, _⟩, h3⟩ := case_section
        exact absurd h3 (hno a body h1 m rest e _ rfl)
    · have := yes hp (no _ _ (by decide) (by decide))
      simpa using this
    · have := yes hm (no _ _ (by decide) (by decide))
      simp only [List.replicate, List.cons.injEq] at this
      rw [hmt, this.2.2.1]; ring

/-- A type block with its engine count. -/
example : TypeBlock (chars "Actype\nCD A320__ 2 engines Jet M\n")
    (chars "Actype\nCD A320__ 2 engines Jet M") := by
  refine ⟨[], chars "\nCD A320__ 2 engines Jet M\n", [], [32], chars "A320__ 2 engines Jet M", [10],
    ⟨by decide, fun _ _ _ => Nat.zero_le _⟩, by decide, by simp [Run, Blank, chars],
    by simp [chars], by simp, fun _ _ _ _ _ => Nat.zero_le _, by decide⟩

example : Engines (chars "2 engines Jet M") (chars "2") ∧ value (chars "2") = 2 :=
  ⟨⟨[32], chars "engine", chars "s Jet M", by decide, by simp [Run, IsDigit, chars],
    by simp [Run, Blank, chars], by simp [chars, SameText, SameLetter]⟩, by decide⟩

/-- A file without `CD`. -/
example : Absent (chars "CD") (chars "not a BADA file") := by
  intro a rest e
  have : (67 : ℕ) ∈ chars "not a BADA file" := by rw [e]; simp [chars]
  revert this; decide

end Verif.Props
