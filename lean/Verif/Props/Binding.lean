import Verif.Lemmas.BindingCore
import Verif.Data.Shipped

/-!
# C124: which arguments reach what
-/

namespace Verif.Props
open Verif Verif.Tables Verif.Registry Verif.Binding Verif.Binding.Spec

variable (db : DB)

theorem engine_arg {r : AircraftRow} {o : Option Val} {s : Str}
    (h : engineName r (o.getD .none) = .ok s) : ∃ eng, EngineArg o eng := by
  cases o with
  | none => exact ⟨_, .absent⟩
  | some v =>
    cases v with
    | none => exact ⟨_, .none⟩
    | str s => exact ⟨_, .name s⟩
    | bool b => simp [engineName, Val.asStr] at h
    | int n => simp [engineName, Val.asStr] at h
    | backend k => simp [engineName, Val.asStr] at h
    | object => simp [engineName, Val.asStr] at h

theorem bind_ok {β γ : Type} {x : Except PyError β} {f : β → Except PyError γ} {c : γ}
    (h : (x >>= f) = .ok c) : ∃ b, x = .ok b ∧ f b = .ok c := by
  cases x with
  | ok b => exact ⟨b, rfl, h⟩
  | error e => exact absurd h (by simp [error_bind])

theorem baseBody_str {v b : Val} {r : Base} (h : baseBody v b = .ok r) : ∃ s, v = .str s := by
  rw [baseBody_eq] at h
  cases v with
  | str s => exact ⟨s, rfl⟩
  | none => simp [Val.asStr, Except.map] at h
  | bool b => simp [Val.asStr, Except.map] at h
  | int n => simp [Val.asStr, Except.map] at h
  | backend k => simp [Val.asStr, Except.map] at h
  | object => simp [Val.asStr, Except.map] at h

theorem eng_bound {a : Args} {l : List Val}
    (h : bindArgs sigEng (.object :: a.pos) a.kw = .ok l) :
    Legal engNames a ∧ ∃ v, given engNames a "ac" = some v ∧
      l = [.object, v, (given engNames a "eng").getD .none,
        (given engNames a "backend").getD .none] := by
  have hl : Legal engNames a := legal_of_bind (ps := sigEng.tail) h
  rw [bind_eng hl] at h
  refine ⟨hl, ?_⟩
  cases hv : given engNames a "ac" with
  | none => simp [hv] at h
  | some v => simp only [hv, Except.ok.injEq] at h; exact ⟨v, rfl, h.symm⟩

/-- **C124.** `Thrust(…)` returns exactly when the call is legal for the parameters `ac`, `eng`,
`backend`, `ac` is a string, `eng` is absent, `None` or a string, and the record selection of
`Construct.thrust` succeeds with the truth values of the keywords `use_synonym` and
`force_engine`; the object and its aero functions then carry the backend passed, or NumPy if
none was. -/
theorem C124_thrust (a : Args) (o : ThrustObj) :
    thrust db a = .ok o ↔ Legal ["ac", "eng", "backend"] a ∧ ∃ ac eng,
      given ["ac", "eng", "backend"] a "ac" = some (.str ac) ∧
      EngineArg (given ["ac", "eng", "backend"] a "eng") eng ∧
      Construct.thrust db ac eng (synonym a) (flag "force_engine" a) = .ok o.records ∧
      o.base.backend = chosen (given ["ac", "eng", "backend"] a "backend") ∧
      o.base.aero = o.base.backend ∧ o.base.ac = lower ac := by
  constructor
  · intro h
    have h0 := h
    rw [thrust_core] at h
    obtain ⟨l, hl, h⟩ := bind_ok h
    obtain ⟨hleg, v, hv, rfl⟩ := eng_bound hl
    simp only [thrustCore] at h
    obtain ⟨base, hb, h⟩ := bind_ok h
    obtain ⟨s, rfl⟩ := baseBody_str hb
    obtain ⟨r, _, h⟩ := bind_ok h
    obtain ⟨e, he, h⟩ := bind_ok h
    obtain ⟨eng, heng⟩ := engine_arg he
    rw [thrust_eq hleg hv heng] at h0
    refine ⟨hleg, s, eng, hv, heng, ?_⟩
    cases hc : Construct.thrust db s eng (synonym a) (flag "force_engine" a) with
    | error e => simp [hc, Except.map] at h0
    | ok r' =>
      simp only [hc, Except.map, Except.ok.injEq] at h0
      subst h0
      exact ⟨rfl, rfl, rfl, rfl⟩
  · rintro ⟨hleg, ac, eng, hac, heng, hc, h1, h2, h3⟩
    rw [thrust_eq hleg hac heng, hc]
    obtain ⟨⟨b, ae, s⟩, r⟩ := o
    simp only at h1 h2 h3
    subst h2 h3 h1
    rfl

/-- **C124.** The same for `Emission(…)`; `force_engine` is not read. -/
theorem C124_emission (a : Args) (o : EmissionObj) :
    emission db a = .ok o ↔ Legal ["ac", "eng", "backend"] a ∧ ∃ ac eng,
      given ["ac", "eng", "backend"] a "ac" = some (.str ac) ∧
      EngineArg (given ["ac", "eng", "backend"] a "eng") eng ∧
      Construct.emission db ac eng (synonym a) = .ok o.records ∧
      o.base.backend = chosen (given ["ac", "eng", "backend"] a "backend") ∧
      o.base.aero = o.base.backend ∧ o.base.ac = lower ac := by
  constructor
  · intro h
    have h0 := h
    rw [emission_core] at h
    obtain ⟨l, hl, h⟩ := bind_ok h
    obtain ⟨hleg, v, hv, rfl⟩ := eng_bound hl
    simp only [emissionCore] at h
    obtain ⟨base, hb, h⟩ := bind_ok h
    obtain ⟨s, rfl⟩ := baseBody_str hb
    obtain ⟨r, _, h⟩ := bind_ok h
    obtain ⟨e, he, h⟩ := bind_ok h
    obtain ⟨eng, heng⟩ := engine_arg he
    rw [emission_eq hleg hv heng] at h0
    refine ⟨hleg, s, eng, hv, heng, ?_⟩
    cases hc : Construct.emission db s eng (synonym a) with
    | error e => simp [hc, Except.map] at h0
    | ok r' =>
      simp only [hc, Except.map, Except.ok.injEq] at h0
      subst h0
      exact ⟨rfl, rfl, rfl, rfl⟩
  · rintro ⟨hleg, ac, eng, hac, heng, hc, h1, h2, h3⟩
    rw [emission_eq hleg hac heng, hc]
    obtain ⟨⟨b, ae, s⟩, r⟩ := o
    simp only at h1 h2 h3
    subst h2 h3 h1
    rfl

/-- **C124.** `Drag(…)`, whose second parameter is `wave_drag`. -/
theorem C124_drag (a : Args) (o : DragObj) :
    drag db a = .ok o ↔ Legal ["ac", "wave_drag", "backend"] a ∧ ∃ ac,
      given ["ac", "wave_drag", "backend"] a "ac" = some (.str ac) ∧
      Construct.drag db ac (synonym a) = .ok (o.aircraft, o.polar) ∧
      o.waveDrag = (given ["ac", "wave_drag", "backend"] a "wave_drag").getD (.bool false) ∧
      o.base.backend = chosen (given ["ac", "wave_drag", "backend"] a "backend") ∧
      o.base.aero = o.base.backend ∧ o.base.ac = lower ac := by
  constructor
  · intro h
    have h0 := h
    rw [drag_core] at h
    obtain ⟨l, hl, h⟩ := bind_ok h
    have hleg : Legal dragNames a := legal_of_bind (ps := sigDrag.tail) hl
    rw [bind_drag hleg] at hl
    cases hv : given dragNames a "ac" with
    | none => simp [hv] at hl
    | some v =>
      simp only [hv, Except.ok.injEq] at hl
      subst hl
      simp only [dragCore] at h
      obtain ⟨base, hb, h⟩ := bind_ok h
      obtain ⟨s, rfl⟩ := baseBody_str hb
      rw [drag_eq hleg hv] at h0
      refine ⟨hleg, s, rfl, ?_⟩
      cases hc : Construct.drag db s (synonym a) with
      | error e => simp [hc, Except.map] at h0
      | ok r' =>
        simp only [hc, Except.map, Except.ok.injEq] at h0
        subst h0
        exact ⟨rfl, rfl, rfl, rfl, rfl⟩
  · rintro ⟨hleg, ac, hac, hc, h0, h1, h2, h3⟩
    rw [drag_eq hleg hac, hc]
    obtain ⟨⟨b, ae, s⟩, r, p, w⟩ := o
    simp only at h0 h1 h2 h3
    subst h2 h3 h1 h0
    rfl

/-- **C124.** `WRAP(…)`. -/
theorem C124_wrap (a : Args) (o : List WrapRow) :
    wrap db a = .ok o ↔ Legal ["ac"] a ∧ ∃ ac, given ["ac"] a "ac" = some (.str ac) ∧
      Construct.wrap db ac (synonym a) = .ok o := by
  constructor
  · intro h
    have h0 := h
    rw [wrap_core] at h
    obtain ⟨l, hl, h⟩ := bind_ok h
    have hleg : Legal ["ac"] a := legal_of_bind (ps := sigWrap.tail) hl
    rw [bind_wrap hleg] at hl
    cases hv : given ["ac"] a "ac" with
    | none => simp [hv] at hl
    | some v =>
      simp only [hv, Except.ok.injEq] at hl
      subst hl
      obtain ⟨s, hs, h⟩ := bind_ok h
      have : v = .str s := by cases v <;> simp_all [Val.asStr]
      subst this
      rw [wrap_eq hleg hv] at h0
      exact ⟨hleg, s, rfl, h0⟩
  · rintro ⟨hleg, ac, hac, hc⟩
    rw [wrap_eq hleg hac, hc]

/-- **C124.** `FuelFlow(…)`: its own backend, that of its aero functions, of its thrust model
and of its drag model are all the one passed, or NumPy; its drag model has wave drag exactly
as asked by the keyword `wave_drag`, which `FuelFlow` does not name. -/
theorem C124_fuel_flow (a : Args) (o : FuelObj) :
    fuelFlow db a = .ok o ↔ Legal ["ac", "eng", "backend"] a ∧ ∃ ac eng,
      given ["ac", "eng", "backend"] a "ac" = some (.str ac) ∧
      EngineArg (given ["ac", "eng", "backend"] a "eng") eng ∧
      Construct.fuel db ac eng (synonym a) (flag "force_engine" a) =
        .ok ⟨o.aircraft, o.engine, o.thrust.records, (o.drag.aircraft, o.drag.polar), o.wrap,
          o.model⟩ ∧
      o.base.backend = chosen (given ["ac", "eng", "backend"] a "backend") ∧
      o.base.aero = o.base.backend ∧ o.base.ac = lower ac ∧
      o.thrust.base = o.base ∧ o.drag.base = o.base ∧
      o.drag.waveDrag = (a.kw.get "wave_drag").getD (.bool false) := by
  constructor
  · intro h
    have h0 := h
    rw [fuel_core] at h
    obtain ⟨l, hl, h⟩ := bind_ok h
    obtain ⟨hleg, v, hv, rfl⟩ := eng_bound hl
    simp only [fuelCore] at h
    obtain ⟨base, hb, h⟩ := bind_ok h
    obtain ⟨s, rfl⟩ := baseBody_str hb
    obtain ⟨r, _, h⟩ := bind_ok h
    obtain ⟨e, he, h⟩ := bind_ok h
    obtain ⟨eng, heng⟩ := engine_arg he
    rw [fuel_eq hleg hv heng] at h0
    refine ⟨hleg, s, eng, hv, heng, ?_⟩
    cases hc : Construct.fuel db s eng (synonym a) (flag "force_engine" a) with
    | error e => simp [hc, Except.map] at h0
    | ok r' =>
      simp only [hc, Except.map, Except.ok.injEq] at h0
      subst h0
      exact ⟨rfl, rfl, rfl, rfl, rfl, rfl, rfl⟩
  · rintro ⟨hleg, ac, eng, hac, heng, hc, h1, h2, h3, h4, h5, h6⟩
    rw [fuel_eq hleg hac heng, hc]
    obtain ⟨⟨b, ae, s⟩, r, e, ⟨tb, tr⟩, ⟨db', da, dp, dw⟩, w, m⟩ := o
    simp only at h1 h2 h3 h4 h5 h6
    subst h4 h5 h6 h2 h3 h1
    rfl

/-- **C124.** An illegal call raises `TypeError`, whatever else it passes. -/
theorem C124_illegal (a : Args) :
    (¬ Legal ["ac", "wave_drag", "backend"] a → drag db a = .error .typeError) ∧
    (¬ Legal ["ac", "eng", "backend"] a → thrust db a = .error .typeError ∧
      fuelFlow db a = .error .typeError ∧ emission db a = .error .typeError) ∧
    (¬ Legal ["ac"] a → wrap db a = .error .typeError) := by
  refine ⟨fun h => ?_, fun h => ⟨?_, ?_, ?_⟩, fun h => ?_⟩
  · rw [drag_core, show bindArgs sigDrag (.object :: a.pos) a.kw = .error .typeError from
      bind_illegal (ps := sigDrag.tail) h]; rfl
  · rw [thrust_core, show bindArgs sigEng (.object :: a.pos) a.kw = .error .typeError from
      bind_illegal (ps := sigEng.tail) h]; rfl
  · rw [fuel_core, show bindArgs sigEng (.object :: a.pos) a.kw = .error .typeError from
      bind_illegal (ps := sigEng.tail) h]; rfl
  · rw [emission_core, show bindArgs sigEng (.object :: a.pos) a.kw = .error .typeError from
      bind_illegal (ps := sigEng.tail) h]; rfl
  · rw [wrap_core, show bindArgs sigWrap (.object :: a.pos) a.kw = .error .typeError from
      bind_illegal (ps := sigWrap.tail) h]; rfl

/-- **C124.** A call without an aircraft raises `TypeError`, an aircraft that is not a string
`AttributeError`. -/
theorem C124_aircraft (a : Args) :
    (Legal ["ac", "wave_drag", "backend"] a → ∀ v,
      given ["ac", "wave_drag", "backend"] a "ac" = v → (∀ s, v ≠ some (.str s)) →
      drag db a = .error (if v = none then .typeError else .attributeError)) ∧
    (Legal ["ac", "eng", "backend"] a → ∀ v,
      given ["ac", "eng", "backend"] a "ac" = v → (∀ s, v ≠ some (.str s)) →
      thrust db a = .error (if v = none then .typeError else .attributeError) ∧
      fuelFlow db a = .error (if v = none then .typeError else .attributeError) ∧
      emission db a = .error (if v = none then .typeError else .attributeError)) ∧
    (Legal ["ac"] a → ∀ v, given ["ac"] a "ac" = v → (∀ s, v ≠ some (.str s)) →
      wrap db a = .error (if v = none then .typeError else .attributeError)) := by
  have hb : ∀ v b : Val, (∀ s, v ≠ .str s) → baseBody v b = .error .attributeError := by
    intro v b h
    rw [baseBody_eq]
    cases v with
    | str s => exact absurd rfl (h s)
    | none => rfl
    | bool _ => rfl
    | int _ => rfl
    | backend _ => rfl
    | object => rfl
  refine ⟨fun h v hv hs => ?_, fun h v hv hs => ⟨?_, ?_, ?_⟩, fun h v hv hs => ?_⟩
  · rw [drag_core, bind_drag h, hv]
    cases v with
    | none => rfl
    | some v =>
      simp only [ok_bind, dragCore]
      rw [hb v _ fun s e => hs s (by rw [e])]; rfl
  · rw [thrust_core, bind_eng h, hv]
    cases v with
    | none => rfl
    | some v =>
      simp only [ok_bind, thrustCore]
      rw [hb v _ fun s e => hs s (by rw [e])]; rfl
  · rw [fuel_core, bind_eng h, hv]
    cases v with
    | none => rfl
    | some v =>
      simp only [ok_bind, fuelCore]
      rw [hb v _ fun s e => hs s (by rw [e])]; rfl
  · rw [emission_core, bind_eng h, hv]
    cases v with
    | none => rfl
    | some v =>
      simp only [ok_bind, emissionCore]
      rw [hb v _ fun s e => hs s (by rw [e])]; rfl
  · rw [wrap_core, bind_wrap h, hv]
    cases v with
    | none => rfl
    | some v =>
      cases v with
      | str s => exact absurd rfl (hs s)
      | none => rfl
      | bool _ => rfl
      | int _ => rfl
      | backend _ => rfl
      | object => rfl

/-- `Drag(320)` and `Drag()` are such calls. -/
example : Legal ["ac", "wave_drag", "backend"] ⟨[.int 320], []⟩ ∧
    given ["ac", "wave_drag", "backend"] ⟨[.int 320], []⟩ "ac" = some (.int 320) ∧
    given ["ac", "wave_drag", "backend"] ⟨[], []⟩ "ac" = none := by
  refine ⟨⟨by decide, rfl, by simp [Dict.get]⟩, rfl, rfl⟩

/-- **C124.** Keywords other than the ones listed change nothing and raise nothing: two calls
that agree on the listed keywords have the same outcome. -/
theorem C124_unread_keywords (a a' : Args) :
    (SameOn ["self", "ac", "wave_drag", "backend", "use_synonym"] a a' →
      drag db a = drag db a') ∧
    (SameOn ["self", "ac", "eng", "backend", "use_synonym", "force_engine"] a a' →
      thrust db a = thrust db a') ∧
    (SameOn ["self", "ac", "eng", "backend", "use_synonym"] a a' →
      emission db a = emission db a') ∧
    (SameOn ["self", "ac", "use_synonym"] a a' → wrap db a = wrap db a') ∧
    (SameOn ["self", "ac", "eng", "backend", "use_synonym", "force_engine", "wave_drag"] a a' →
      fuelFlow db a = fuelFlow db a') := by
  refine ⟨fun h => ?_, fun h => ?_, fun h => ?_, fun h => ?_, fun h => ?_⟩
  · rw [drag_core, drag_core,
      bind_same (ps := sigDrag) (SameOn.mono h (by simp [sigDrag])), h.2 "use_synonym" (by simp)]
  · rw [thrust_core, thrust_core, bind_same (ps := sigEng) (SameOn.mono h (by simp [sigEng])),
      h.2 "use_synonym" (by simp), h.2 "force_engine" (by simp)]
  · rw [emission_core, emission_core, bind_same (ps := sigEng) (SameOn.mono h (by simp [sigEng])),
      h.2 "use_synonym" (by simp)]
  · rw [wrap_core, wrap_core, bind_same (ps := sigWrap) (SameOn.mono h (by simp [sigWrap])),
      h.2 "use_synonym" (by simp)]
  · rw [fuel_core, fuel_core, bind_same (ps := sigEng) (SameOn.mono h (by simp [sigEng])),
      h.2 "use_synonym" (by simp), h.2 "force_engine" (by simp), h.2 "wave_drag" (by simp)]

theorem sub_eng {β : Type} {init : Args → Except PyError β}
    {K : Val → Val → Val → Dict Val → Except PyError β}
    (hi : ∀ a, init a = bindArgs sigEng (.object :: a.pos) a.kw >>= fun l => match l with
      | [_, ac, eng, b] => K ac eng b a.kw
      | _ => .error .typeError)
    (hK : ∀ ac eng b kw kw',
      (∀ n ∈ ["use_synonym", "force_engine", "wave_drag"], Dict.get n kw = Dict.get n kw') →
      K ac eng b kw = K ac eng b kw')
    (k : Kind) (a : Args) :
    (Legal ["ac", "eng"] a → a.kw.get "backend" = none →
      subEng init k a = init { pos := a.pos, kw := ("backend", .backend k) :: a.kw }) ∧
    (¬ (Legal ["ac", "eng"] a ∧ a.kw.get "backend" = none) →
      subEng init k a = .error .typeError) := by
  have g : ∀ n ∉ ["self", "ac", "eng"], Dict.get n (rest sigSub a.kw) = a.kw.get n := by
    intro n hn
    rw [get_rest]; exact if_neg hn
  have gs : Dict.get "self" (rest sigSub a.kw) = none := by simp [get_rest, sigSub]
  have ga : Dict.get "ac" (rest sigSub a.kw) = none := by simp [get_rest, sigSub]
  have ge : Dict.get "eng" (rest sigSub a.kw) = none := by simp [get_rest, sigSub]
  constructor
  · intro h hb
    rcases bind_sub (k := .backend k) h hb with ⟨ac, eng, h1, h2⟩ | ⟨h1, h2⟩
    · simp only [subEng, h1, ok_bind, withKw, g "backend" (by decide), hb]
      rw [if_neg (by simp)]
      simp only [ok_bind]
      rw [hi, hi, h2]
      have : bindArgs sigEng [.object, ac, eng] (("backend", .backend k) :: rest sigSub a.kw) =
          .ok [.object, ac, eng, .backend k] := by
        simp [sigEng, bindArgs, get_cons, gs, ga, ge, Except.map]
      rw [this]
      simp only [ok_bind]
      apply hK
      intro n hn
      rw [get_cons, get_cons, g n]
      simp only [List.mem_cons, List.not_mem_nil, or_false] at hn ⊢
      rcases hn with rfl | rfl | rfl <;> decide
    · rw [hi, h2]
      simp only [subEng, h1, error_bind]
  · intro h
    by_cases hl : Legal ["ac", "eng"] a
    · have hb : (a.kw.get "backend").isSome := by
        cases hv : a.kw.get "backend" with
        | none => exact absurd ⟨hl, hv⟩ h
        | some v => rfl
      unfold subEng
      cases hv : bindArgs sigSub (.object :: a.pos) a.kw with
      | error e => rw [bind_error _ _ _ _ hv]; rfl
      | ok l =>
        simp only [ok_bind]
        split
        · simp only [withKw, g "backend" (by decide), hb, if_true, error_bind]
        · rfl
    · unfold subEng
      rw [show bindArgs sigSub (.object :: a.pos) a.kw = .error .typeError from
        bind_illegal (ps := sigSub.tail) hl]
      rfl

/-- **C124.** The classes of `openap.casadi` and `openap.jax` are the base classes with the
backend fixed. They accept one positional argument less: passing `backend`, or more
positional arguments than `ac` and `eng` (only `ac` for `Drag`), raises `TypeError`. -/
theorem C124_subclasses (k : Kind) (a : Args) :
    (Legal ["ac"] a → a.kw.get "backend" = none → subDrag db k a =
      drag db { pos := a.pos, kw := ("backend", .backend k) :: a.kw }) ∧
    (¬ (Legal ["ac"] a ∧ a.kw.get "backend" = none) → subDrag db k a = .error .typeError) ∧
    (Legal ["ac", "eng"] a → a.kw.get "backend" = none →
      subThrust db k a = thrust db { pos := a.pos, kw := ("backend", .backend k) :: a.kw } ∧
      subFuelFlow db k a = fuelFlow db { pos := a.pos, kw := ("backend", .backend k) :: a.kw } ∧
      subEmission db k a =
        emission db { pos := a.pos, kw := ("backend", .backend k) :: a.kw }) ∧
    (¬ (Legal ["ac", "eng"] a ∧ a.kw.get "backend" = none) →
      subThrust db k a = .error .typeError ∧ subFuelFlow db k a = .error .typeError ∧
      subEmission db k a = .error .typeError) := by
  have ht := sub_eng (K := fun ac eng b kw => thrustCore db ac eng b (kw.get "use_synonym")
    (kw.get "force_engine")) (thrust_core db) (by
    intro ac eng b kw kw' h
    rw [h "use_synonym" (by simp), h "force_engine" (by simp)]) k a
  have hf := sub_eng (K := fun ac eng b kw => fuelCore db ac eng b (kw.get "use_synonym")
    (kw.get "force_engine") (kw.get "wave_drag")) (fuel_core db) (by
    intro ac eng b kw kw' h
    rw [h "use_synonym" (by simp), h "force_engine" (by simp), h "wave_drag" (by simp)]) k a
  have he := sub_eng (K := fun ac eng b kw => emissionCore db ac eng b (kw.get "use_synonym"))
    (emission_core db) (by
    intro ac eng b kw kw' h
    rw [h "use_synonym" (by simp)]) k a
  refine ⟨?_, ?_, fun h hb => ⟨ht.1 h hb, hf.1 h hb, he.1 h hb⟩,
    fun h => ⟨ht.2 h, hf.2 h, he.2 h⟩⟩
  · intro h hb
    have g : ∀ n ∉ ["self", "ac"], Dict.get n (rest sigSubDrag a.kw) = a.kw.get n := by
      intro n hn
      rw [get_rest]; exact if_neg hn
    have gs : Dict.get "self" (rest sigSubDrag a.kw) = none := by simp [get_rest, sigSubDrag]
    have ga : Dict.get "ac" (rest sigSubDrag a.kw) = none := by simp [get_rest, sigSubDrag]
    have hbs : bindArgs sigSubDrag (.object :: a.pos) a.kw =
        match given ["ac"] a "ac" with
        | none => .error .typeError
        | some ac => .ok [.object, ac] := bind_wrap h
    have hleg : Legal dragNames ⟨a.pos, ("backend", .backend k) :: a.kw⟩ := by
      obtain ⟨h1, h2, h3⟩ := h
      refine ⟨?_, ?_, ?_⟩
      · simp at h1 ⊢; omega
      · simpa [get_cons] using h2
      · intro n hn
        simp only [get_cons]
        rcases hp : a.pos with _ | ⟨x, _ | ⟨y, l⟩⟩
        · simp [hp] at hn
        · simp [hp] at hn
          subst hn
          simpa using h3 "ac" (by simp [hp])
        · simp [hp] at h1 <;> omega
    have hg : ∀ n, given dragNames ⟨a.pos, ("backend", .backend k) :: a.kw⟩ n =
        if n = "backend" then some (.backend k) else
          if n = "wave_drag" then a.kw.get n else given ["ac"] a n := by
      intro n
      obtain ⟨h1, h2, h3⟩ := h
      rcases hp : a.pos with _ | ⟨x, _ | ⟨y, l⟩⟩
      · simp only [given, hp, List.zip_nil_right, Dict.get, Option.none_or]
        by_cases e : n = "backend"
        · simp [e]
        · rw [if_neg (Ne.symm e), if_neg e]; simp
      · simp only [given, hp, List.zip_cons_cons, List.zip_nil_right, get_cons, Dict.get]
        by_cases e : n = "backend"
        · simp [e]
        · rw [if_neg (Ne.symm e), if_neg e]
          by_cases e' : n = "wave_drag"
          · simp [e']
          · rw [if_neg e']
      · simp [hp] at h1 <;> omega
    have hac : given dragNames ⟨a.pos, ("backend", .backend k) :: a.kw⟩ "ac" =
        given ["ac"] a "ac" := by rw [hg]; rfl
    unfold subDrag
    rw [drag_core db ⟨a.pos, _⟩, bind_drag hleg, hac, hbs]
    cases hv : given ["ac"] a "ac" with
    | none => rfl
    | some v =>
      simp only [ok_bind, withKw, g "backend" (by decide), hb]
      rw [if_neg (by simp)]
      simp only [ok_bind]
      rw [drag_core]
      have : bindArgs sigDrag [.object, v] (("backend", .backend k) :: rest sigSubDrag a.kw) =
          .ok [.object, v, (a.kw.get "wave_drag").getD (.bool false), .backend k] := by
        simp only [sigDrag, bindArgs, get_cons, gs, ga, g "wave_drag" (by decide)]
        cases a.kw.get "wave_drag" <;> simp [Except.map]
      rw [this, hg, hg]
      simp [ok_bind, get_cons, g "use_synonym" (by decide)]
  · intro h
    by_cases hl : Legal ["ac"] a
    · have hb : (a.kw.get "backend").isSome := by
        cases hv : a.kw.get "backend" with
        | none => exact absurd ⟨hl, hv⟩ h
        | some v => rfl
      have g : Dict.get "backend" (rest sigSubDrag a.kw) = a.kw.get "backend" := by
        rw [get_rest]; exact if_neg (by decide)
      unfold subDrag
      cases hv : bindArgs sigSubDrag (.object :: a.pos) a.kw with
      | error e => rw [bind_error _ _ _ _ hv]; rfl
      | ok l =>
        simp only [ok_bind]
        split
        · simp only [withKw, g, hb, if_true, error_bind]
        · rfl
    · unfold subDrag
      rw [show bindArgs sigSubDrag (.object :: a.pos) a.kw = .error .typeError from
        bind_illegal (ps := sigSubDrag.tail) hl]
      rfl

/-- **C124.** `get_backend` knows three names and `default_backend` is NumPy. -/
theorem C124_get_backend (name : String) :
    (∀ v, getBackend name = .ok v ↔ (name = "numpy" ∧ v = .backend .numpy) ∨
      (name = "casadi" ∧ v = .backend .casadi) ∨ (name = "jax" ∧ v = .backend .jax)) ∧
    (name ≠ "numpy" → name ≠ "casadi" → name ≠ "jax" → getBackend name = .error .valueError) ∧
    getBackend = .ok defaultBackend := by
  refine ⟨?_, ?_, rfl⟩
  · intro v
    unfold getBackend
    by_cases h1 : name = "numpy"
    · simp [h1, eq_comm]
    · by_cases h2 : name = "casadi"
      · simp [h2, eq_comm]
      · by_cases h3 : name = "jax"
        · simp [h3, eq_comm]
        · simp [h1, h2, h3]
  · intro h1 h2 h3
    simp [getBackend, h1, h2, h3]

/-- `FuelFlow("a320", backend=JaxBackend(), use_synonyms=True, wave_drag=True)`, with the
keyword `use_synonym` misspelt, against a call that leaves it out. -/
example : SameOn ["self", "ac", "eng", "backend", "use_synonym", "force_engine", "wave_drag"]
      ⟨[.str [97, 51, 50, 48]], [("backend", .backend .jax), ("use_synonyms", .bool true),
        ("wave_drag", .bool true)]⟩
      ⟨[.str [97, 51, 50, 48]], [("wave_drag", .bool true), ("backend", .backend .jax)]⟩ ∧
    ∃ o, fuelFlow Data.shipped ⟨[.str [97, 51, 50, 48]], [("wave_drag", .bool true),
        ("backend", .backend .jax)]⟩ = .ok o ∧ o.drag.waveDrag = .bool true ∧
      o.base.backend = .backend .jax ∧ o.thrust.base.backend = .backend .jax := by
  refine ⟨⟨rfl, by decide⟩, ?_⟩
  have h : Except.isOk' (fuelFlow Data.shipped ⟨[.str [97, 51, 50, 48]],
      [("wave_drag", .bool true), ("backend", .backend .jax)]⟩) = true := by decide +kernel
  cases ho : fuelFlow Data.shipped ⟨[.str [97, 51, 50, 48]],
      [("wave_drag", .bool true), ("backend", .backend .jax)]⟩ with
  | error e => rw [ho] at h; exact absurd h (by simp [Except.isOk'])
  | ok o =>
    obtain ⟨_, ac, eng, _, _, _, h1, _, _, h4, _, h6⟩ := (C124_fuel_flow _ _ _).1 ho
    exact ⟨o, rfl, h6, h1, by rw [h4]; exact h1⟩

/-- `openap.jax.Drag("A320", True)` is illegal though `openap.Drag("A320", True)` is not; a
backend given by name is accepted by the constructor. -/
example : ¬ Legal ["ac"] ⟨[.str [97, 51, 50, 48], .bool true], []⟩ ∧
    Legal ["ac", "wave_drag", "backend"] ⟨[.str [97, 51, 50, 48], .bool true], []⟩ ∧
    chosen (given ["ac", "wave_drag", "backend"]
      ⟨[.str [97, 51, 50, 48]], [("backend", .str [106, 97, 120])]⟩ "backend") =
        .str [106, 97, 120] ∧
    chosen (given ["ac", "eng", "backend"] ⟨[.str [97, 51, 50, 48], .none, .int 0], []⟩
      "backend") = .backend .numpy := by
  refine ⟨fun h => absurd h.1 (by decide), ⟨by decide, rfl, by decide⟩, rfl, rfl⟩

end Verif.Props
