import Verif.Spec.Binding

/-!
# Lemmas on argument binding
-/

namespace Verif.Binding
open Verif.Tables Verif.Registry Spec

theorem ok_bind {β γ : Type} (x : β) (f : β → Except PyError γ) :
    ((.ok x : Except PyError β) >>= f) = f x := rfl

theorem error_bind {β γ : Type} (e : PyError) (f : β → Except PyError γ) :
    ((.error e : Except PyError β) >>= f) = .error e := rfl

theorem get_cons {β : Type} (n k : String) (v : β) (d : Dict β) :
    Dict.get n ((k, v) :: d) = if k = n then some v else Dict.get n d := rfl

theorem get_rest (ps : Sig) (n : String) (kw : Dict Val) :
    Dict.get n (rest ps kw) = if n ∈ ps.map (·.1) then none else kw.get n := by
  induction kw with
  | nil => simp [rest, Dict.get]
  | cons e kw ih =>
    obtain ⟨k, v⟩ := e
    have h : rest ps ((k, v) :: kw) =
        if k ∉ ps.map (·.1) then (k, v) :: rest ps kw else rest ps kw := by
      simp only [rest, List.filter_cons, decide_eq_true_eq]
    rw [h]
    by_cases hk : k ∈ ps.map (·.1)
    · rw [if_neg (not_not.2 hk), ih]
      by_cases hn : n ∈ ps.map (·.1)
      · rw [if_pos hn, if_pos hn]
      · rw [if_neg hn, if_neg hn]
        have : k ≠ n := fun e => hn (e ▸ hk)
        simp [Dict.get, this]
    · rw [if_pos hk]
      simp only [Dict.get, ih]
      by_cases he : k = n
      · subst he; simp [hk]
      · simp [he]

theorem bind_congr (ps : Sig) : ∀ (vs : List Val) (kw kw' : Dict Val),
    (∀ n ∈ ps.map (·.1), kw.get n = kw'.get n) → bindArgs ps vs kw = bindArgs ps vs kw' := by
  induction ps with
  | nil => intro vs kw kw' _; cases vs <;> rfl
  | cons p ps ih =>
    intro vs kw kw' h
    obtain ⟨n, d⟩ := p
    have hn := h n (by simp)
    have ht : ∀ m ∈ ps.map (·.1), kw.get m = kw'.get m := fun m hm => h m (by simp_all)
    cases vs with
    | nil => simp only [bindArgs, hn, ih [] kw kw' ht]
    | cons v vs => simp only [bindArgs, hn, ih vs kw kw' ht]

theorem legal_of_bind {d : Option Val} {ps : Sig} {a : Args} {r : List Val}
    (h : bindArgs (("self", d) :: ps) (.object :: a.pos) a.kw = .ok r) :
    Legal (ps.map (·.1)) a := by
  have hs : a.kw.get "self" = none := by
    by_contra hc
    simp [bindArgs, Option.isSome_iff_ne_none.2 hc] at h
  have h' : ∃ r', bindArgs ps a.pos a.kw = .ok r' := by
    simp only [bindArgs, hs] at h
    cases hb : bindArgs ps a.pos a.kw with
    | ok r' => exact ⟨r', rfl⟩
    | error e => simp [hb, Except.map] at h
  clear h
  refine ⟨?_, hs, ?_⟩
  · obtain ⟨r', h'⟩ := h'
    generalize a.pos = vs at h'
    induction ps generalizing vs r' with
    | nil => cases vs <;> simp_all [bindArgs]
    | cons p ps ih =>
      cases vs with
      | nil => simp
      | cons v vs =>
        obtain ⟨n, d'⟩ := p
        simp only [bindArgs] at h'
        split_ifs at h'
        cases hb : bindArgs ps vs a.kw with
        | ok r'' => simpa using ih r'' vs hb
        | error e => simp [hb, Except.map] at h'
  · obtain ⟨r', h'⟩ := h'
    generalize a.pos = vs at h'
    induction ps generalizing vs r' with
    | nil => simp
    | cons p ps ih =>
      cases vs with
      | nil => simp
      | cons v vs =>
        obtain ⟨n, d'⟩ := p
        simp only [bindArgs] at h'
        split_ifs at h' with hk
        cases hb : bindArgs ps vs a.kw with
        | ok r'' =>
          intro m hm
          simp only [List.map_cons, List.length_cons, List.take_succ_cons, List.mem_cons] at hm
          rcases hm with rfl | hm
          · simpa using hk
          · exact ih r'' vs hb m hm
        | error e => simp [hb, Except.map] at h'

theorem bind_error (ps : Sig) : ∀ (vs : List Val) (kw : Dict Val) (e : PyError),
    bindArgs ps vs kw = .error e → e = .typeError := by
  induction ps with
  | nil => intro vs kw e h; cases vs <;> simp_all [bindArgs]
  | cons p ps ih =>
    intro vs kw e h
    obtain ⟨n, d⟩ := p
    have key : ∀ (vs : List Val) (v : Val), (bindArgs ps vs kw).map (v :: ·) = .error e →
        e = .typeError := by
      intro vs v h
      cases hb : bindArgs ps vs kw with
      | ok r => simp [hb, Except.map] at h
      | error e' =>
        have := ih vs kw e' hb
        simp [hb, Except.map] at h
        exact h ▸ this
    cases vs with
    | nil =>
      simp only [bindArgs] at h
      split at h
      · exact key _ _ h
      · split at h
        · exact key _ _ h
        · simpa using h.symm
    | cons v vs =>
      simp only [bindArgs] at h
      split_ifs at h
      · simpa using h.symm
      · exact key _ _ h

/-- An illegal call does not bind. -/
theorem bind_illegal {d : Option Val} {ps : Sig} {a : Args} (h : ¬ Legal (ps.map (·.1)) a) :
    bindArgs (("self", d) :: ps) (.object :: a.pos) a.kw = .error .typeError := by
  cases hb : bindArgs (("self", d) :: ps) (.object :: a.pos) a.kw with
  | ok r => exact absurd (legal_of_bind hb) h
  | error e => rw [bind_error _ _ _ _ hb]

/-- The parameters of `Thrust`, `FuelFlow` and `Emission`. -/
abbrev engNames : List String := ["ac", "eng", "backend"]

theorem bind_eng {a : Args} (h : Legal engNames a) :
    bindArgs sigEng (.object :: a.pos) a.kw =
      match given engNames a "ac" with
      | none => .error .typeError
      | some ac => .ok [.object, ac, (given engNames a "eng").getD .none,
          (given engNames a "backend").getD .none] := by
  obtain ⟨h1, hs, h2⟩ := h
  obtain ⟨pos, kw⟩ := a
  simp only at h1 hs h2 ⊢
  rcases pos with _ | ⟨x, _ | ⟨y, _ | ⟨z, _ | ⟨w, l⟩⟩⟩⟩
  · simp only [sigEng, bindArgs, hs, given, engNames, List.zip_nil_right, Dict.get, Option.none_or]
    cases kw.get "ac" <;> cases kw.get "eng" <;> cases kw.get "backend" <;> simp [Except.map]
  · have := h2 "ac" (by simp)
    simp only [sigEng, bindArgs, hs, given, engNames, List.zip, List.zipWith, Dict.get, this]
    cases kw.get "eng" <;> cases kw.get "backend" <;> simp [Except.map]
  · have := h2 "ac" (by simp)
    have h3 := h2 "eng" (by simp)
    simp only [sigEng, bindArgs, hs, given, engNames, List.zip, List.zipWith, Dict.get, this, h3]
    cases kw.get "backend" <;> simp [Except.map]
  · have := h2 "ac" (by simp)
    have h3 := h2 "eng" (by simp)
    have h4 := h2 "backend" (by simp)
    simp only [sigEng, bindArgs, hs, given, engNames, List.zip, List.zipWith, Dict.get, this, h3, h4]
    simp [Except.map]
  · simp at h1 <;> omega

/-- The parameters of `Drag`. -/
abbrev dragNames : List String := ["ac", "wave_drag", "backend"]

theorem bind_drag {a : Args} (h : Legal dragNames a) :
    bindArgs sigDrag (.object :: a.pos) a.kw =
      match given dragNames a "ac" with
      | none => .error .typeError
      | some ac => .ok [.object, ac, (given dragNames a "wave_drag").getD (.bool false),
          (given dragNames a "backend").getD .none] := by
  obtain ⟨h1, hs, h2⟩ := h
  obtain ⟨pos, kw⟩ := a
  simp only at h1 hs h2 ⊢
  rcases pos with _ | ⟨x, _ | ⟨y, _ | ⟨z, _ | ⟨w, l⟩⟩⟩⟩
  · simp only [sigDrag, bindArgs, hs, given, dragNames, List.zip_nil_right, Dict.get, Option.none_or]
    cases kw.get "ac" <;> cases kw.get "wave_drag" <;> cases kw.get "backend" <;>
      simp [Except.map]
  · have := h2 "ac" (by simp)
    simp only [sigDrag, bindArgs, hs, given, dragNames, List.zip, List.zipWith, Dict.get, this]
    cases kw.get "wave_drag" <;> cases kw.get "backend" <;> simp [Except.map]
  · have := h2 "ac" (by simp)
    have h3 := h2 "wave_drag" (by simp)
    simp only [sigDrag, bindArgs, hs, given, dragNames, List.zip, List.zipWith, Dict.get, this, h3]
    cases kw.get "backend" <;> simp [Except.map]
  · have := h2 "ac" (by simp)
    have h3 := h2 "wave_drag" (by simp)
    have h4 := h2 "backend" (by simp)
    simp only [sigDrag, bindArgs, hs, given, dragNames, List.zip, List.zipWith, Dict.get, this, h3, h4]
    simp [Except.map]
  · simp at h1 <;> omega

theorem bind_wrap {a : Args} (h : Legal ["ac"] a) :
    bindArgs sigWrap (.object :: a.pos) a.kw =
      match given ["ac"] a "ac" with
      | none => .error .typeError
      | some ac => .ok [.object, ac] := by
  obtain ⟨h1, hs, h2⟩ := h
  obtain ⟨pos, kw⟩ := a
  simp only at h1 hs h2 ⊢
  rcases pos with _ | ⟨x, _ | ⟨y, l⟩⟩
  · simp only [sigWrap, bindArgs, hs, given, List.zip_nil_right, Dict.get, Option.none_or]
    cases kw.get "ac" <;> simp [Except.map]
  · have := h2 "ac" (by simp)
    simp only [sigWrap, bindArgs, hs, given, List.zip, List.zipWith, Dict.get, this]
    simp [Except.map]
  · simp at h1 <;> omega

theorem orDefault_orDefault (v : Val) : orDefault (orDefault v) = orDefault v := by
  unfold orDefault
  by_cases h : v.truthy = true
  · simp only [h, if_true]
  · simp only [h, Bool.false_eq_true, if_false]
    rfl

theorem counts_eq : counts = Val.truthy := by
  funext v
  cases v with
  | bool b => cases b <;> rfl
  | int n => by_cases h : n = 0 <;> simp [counts, Val.truthy, h]
  | str s => cases s <;> simp [counts, Val.truthy]
  | _ => rfl

theorem chosen_some (v : Val) :
    chosen (some v) = if v.truthy then v else .backend .numpy := by
  rw [← counts_eq]; rfl

theorem flag_eq (k : String) (a : Args) :
    flag k a = ((a.kw.get k).map Val.truthy).getD false := by
  rw [← counts_eq]; rfl

theorem synonym_eq (a : Args) : synonym a = (a.kw.get "use_synonym").map Val.truthy := by
  rw [← counts_eq]; rfl

theorem orDefault_getD (o : Option Val) : orDefault (o.getD .none) = chosen o := by
  cases o with
  | none => rfl
  | some v => simp [orDefault, chosen_some, defaultBackend]

theorem baseBody_eq (ac backend : Val) : baseBody ac backend =
    ac.asStr.map fun s => ⟨orDefault backend, orDefault backend, lower s⟩ := by
  unfold baseBody
  cases ac.asStr with
  | ok s => simp [orDefault_orDefault, Except.map, ok_bind, pure, Except.pure]
  | error e => rfl

theorem engBase_eq (ac eng b : Val) (kw : Dict Val) :
    ((withKw "backend" b (rest sigEng kw)).bind fun k => engBase { pos := [ac, eng], kw := k }) =
      baseBody ac b := by
  have hb : Dict.get "backend" (rest sigEng kw) = none := by simp [get_rest, sigEng]
  have hs : Dict.get "self" (rest sigEng kw) = none := by simp [get_rest, sigEng]
  have ha : Dict.get "ac" (rest sigEng kw) = none := by simp [get_rest, sigEng]
  have he : Dict.get "eng" (rest sigEng kw) = none := by simp [get_rest, sigEng]
  simp only [withKw, hb, Except.bind, engBase, sigBase, bindArgs]
  simp [get_cons, hs, ha, he, Except.map, ok_bind]

theorem dragBase_eq (ac b : Val) (kw : Dict Val) :
    ((withKw "backend" b (rest sigDrag kw)).bind fun k => dragBase { pos := [ac], kw := k }) =
      baseBody ac b := by
  have hb : Dict.get "backend" (rest sigDrag kw) = none := by simp [get_rest, sigDrag]
  have hs : Dict.get "self" (rest sigDrag kw) = none := by simp [get_rest, sigDrag]
  have ha : Dict.get "ac" (rest sigDrag kw) = none := by simp [get_rest, sigDrag]
  simp only [withKw, hb, Except.bind, dragBase, sigDragBase, bindArgs]
  simp [get_cons, hs, ha, Except.map, ok_bind]

theorem aircraftCall_eq (db : DB) (s : Str) (kw : Dict Val) (h : kw.get "ac" = none) :
    aircraftCall db { pos := [.str s], kw := kw } =
      aircraft db s (((kw.get "use_synonym").map Val.truthy).getD false) := by
  simp only [aircraftCall, sigAircraft, bindArgs, h]
  cases kw.get "use_synonym" <;>
    simp [Except.map, ok_bind, Val.asStr, Val.truthy]

theorem engineName_eq {a : AircraftRow} {o : Option Val} {eng : Option Str}
    (h : EngineArg o eng) : engineName a (o.getD .none) = .ok (eng.getD a.default) := by
  cases h <;> rfl

theorem get_rest_eng (n : String) (kw : Dict Val) (h : n ∉ ["self", "ac", "eng", "backend"]) :
    Dict.get n (rest sigEng kw) = kw.get n := by
  rw [get_rest]; exact if_neg h

theorem get_rest_drag (n : String) (kw : Dict Val)
    (h : n ∉ ["self", "ac", "wave_drag", "backend"]) :
    Dict.get n (rest sigDrag kw) = kw.get n := by
  rw [get_rest]; exact if_neg h

theorem get_rest_wrap (n : String) (kw : Dict Val) (h : n ∉ ["self", "ac"]) :
    Dict.get n (rest sigWrap kw) = kw.get n := by
  rw [get_rest]; exact if_neg h

/-- Attributes of the base class of an object made by a legal call. -/
def baseOf (b : Option Val) (ac : Str) : Base := ⟨chosen b, chosen b, lower ac⟩

theorem force_eq (o : Option Val) :
    (o.getD (.bool false)).truthy = (o.map Val.truthy).getD false := by
  cases o <;> rfl

variable {db : DB}

theorem thrust_eq {a : Args} {ac : Str} {eng : Option Str} (h : Legal engNames a)
    (hac : given engNames a "ac" = some (.str ac))
    (heng : EngineArg (given engNames a "eng") eng) :
    thrust db a = (Construct.thrust db ac eng (synonym a) (flag "force_engine" a)).map
      fun r => ⟨baseOf (given engNames a "backend") ac, r⟩ := by
  simp only [flag_eq, synonym_eq]
  have hb := engBase_eq (.str ac) ((given engNames a "eng").getD .none)
    ((given engNames a "backend").getD .none) a.kw
  have ha : Dict.get "ac" (rest sigEng a.kw) = none := by simp [get_rest, sigEng]
  simp only [thrust, bind_eng h, hac, ok_bind]
  simp only [Except.bind, baseBody_eq, Val.asStr, Except.map, orDefault_getD] at hb
  cases hw : withKw "backend" ((given engNames a "backend").getD .none) (rest sigEng a.kw) with
  | error e => simp [hw] at hb
  | ok k =>
    simp only [hw] at hb
    simp only [ok_bind, hb, aircraftCall_eq db ac _ ha, engineName_eq heng, force_eq,
      get_rest_eng "use_synonym" a.kw (by decide), get_rest_eng "force_engine" a.kw (by decide),
      Construct.thrust]
    cases aircraft db ac (((a.kw.get "use_synonym").map Val.truthy).getD false) with
    | error e => rfl
    | ok r =>
      simp only [ok_bind, engineName_eq heng]
      cases engine db (upper (eng.getD r.default)) with
      | error e => rfl
      | ok e =>
        simp only [ok_bind]
        by_cases hc : (!((a.kw.get "force_engine").map Val.truthy).getD false &&
          !(r.options.any fun opt => isIn (upper opt) (upper e.2))) = true
        · rw [if_pos hc, if_pos hc]; rfl
        · rw [if_neg hc, if_neg hc]; rfl

theorem emission_eq {a : Args} {ac : Str} {eng : Option Str} (h : Legal engNames a)
    (hac : given engNames a "ac" = some (.str ac))
    (heng : EngineArg (given engNames a "eng") eng) :
    emission db a = (Construct.emission db ac eng (synonym a)).map
      fun r => ⟨baseOf (given engNames a "backend") ac, r⟩ := by
  have hb := engBase_eq (.str ac) ((given engNames a "eng").getD .none)
    ((given engNames a "backend").getD .none) a.kw
  have ha : Dict.get "ac" (rest sigEng a.kw) = none := by simp [get_rest, sigEng]
  simp only [emission, bind_eng h, hac, ok_bind]
  simp only [Except.bind, baseBody_eq, Val.asStr, Except.map, orDefault_getD] at hb
  cases hw : withKw "backend" ((given engNames a "backend").getD .none) (rest sigEng a.kw) with
  | error e => simp [hw] at hb
  | ok k =>
    simp only [hw] at hb
    simp only [ok_bind, hb, aircraftCall_eq db ac _ ha,
      get_rest_eng "use_synonym" a.kw (by decide), Construct.emission, synonym_eq]
    cases aircraft db ac (((a.kw.get "use_synonym").map Val.truthy).getD false) with
    | error e => rfl
    | ok r =>
      simp only [ok_bind, engineName_eq heng]
      cases engine db (eng.getD r.default) with
      | error e => rfl
      | ok e => rfl

theorem drag_eq {a : Args} {ac : Str} (h : Legal dragNames a)
    (hac : given dragNames a "ac" = some (.str ac)) :
    drag db a = (Construct.drag db ac (synonym a)).map
      fun r => ⟨baseOf (given dragNames a "backend") ac, r.1, r.2,
        (given dragNames a "wave_drag").getD (.bool false)⟩ := by
  have hb := dragBase_eq (.str ac) ((given dragNames a "backend").getD .none) a.kw
  have ha : Dict.get "ac" (rest sigDrag a.kw) = none := by simp [get_rest, sigDrag]
  simp only [drag, bind_drag h, hac, ok_bind]
  simp only [Except.bind, baseBody_eq, Val.asStr, Except.map, orDefault_getD] at hb
  cases hw : withKw "backend" ((given dragNames a "backend").getD .none) (rest sigDrag a.kw) with
  | error e => simp [hw] at hb
  | ok k =>
    simp only [hw] at hb
    simp only [ok_bind, hb, aircraftCall_eq db _ _ ha, synonymOf,
      get_rest_drag "use_synonym" a.kw (by decide), Construct.drag, synonym_eq]
    cases aircraft db (lower ac) (((a.kw.get "use_synonym").map Val.truthy).getD false) with
    | error e => rfl
    | ok r =>
      simp only [ok_bind]
      cases Construct.polar db (lower ac) ((a.kw.get "use_synonym").map Val.truthy) with
      | error e => rfl
      | ok e => rfl

theorem wrap_eq {a : Args} {ac : Str} (h : Legal ["ac"] a)
    (hac : given ["ac"] a "ac" = some (.str ac)) :
    wrap db a = Construct.wrap db ac (synonym a) := by
  simp only [wrap, bind_wrap h, hac, ok_bind, Val.asStr, synonymOf,
    get_rest_wrap "use_synonym" a.kw (by decide), synonym_eq]

theorem fuel_eq {a : Args} {ac : Str} {eng : Option Str} (h : Legal engNames a)
    (hac : given engNames a "ac" = some (.str ac))
    (heng : EngineArg (given engNames a "eng") eng) :
    fuelFlow db a = (Construct.fuel db ac eng (synonym a) (flag "force_engine" a)).map
      fun p => ⟨baseOf (given engNames a "backend") ac, p.ac, p.eng,
        ⟨baseOf (given engNames a "backend") ac, p.thrust⟩,
        ⟨baseOf (given engNames a "backend") ac, p.drag.1, p.drag.2,
          (a.kw.get "wave_drag").getD (.bool false)⟩, p.wrap, p.model⟩ := by
  have hb := engBase_eq (.str ac) ((given engNames a "eng").getD .none)
    ((given engNames a "backend").getD .none) a.kw
  have ha : Dict.get "ac" (rest sigEng a.kw) = none := by simp [get_rest, sigEng]
  have hs : Dict.get "self" (rest sigEng a.kw) = none := by simp [get_rest, sigEng]
  have hbk : Dict.get "backend" (rest sigEng a.kw) = none := by simp [get_rest, sigEng]
  have hen : Dict.get "eng" (rest sigEng a.kw) = none := by simp [get_rest, sigEng]
  simp only [fuelFlow, bind_eng h, hac, ok_bind]
  simp only [Except.bind, baseBody_eq, Val.asStr, Except.map, orDefault_getD] at hb
  cases hw : withKw "backend" ((given engNames a "backend").getD .none) (rest sigEng a.kw) with
  | error e => simp [hw] at hb
  | ok k =>
    simp only [hw] at hb
    simp only [ok_bind, hb, aircraftCall_eq db _ _ ha,
      get_rest_eng "use_synonym" a.kw (by decide), Construct.fuel, synonym_eq, withKw, hbk]
    cases aircraft db (lower ac) (((a.kw.get "use_synonym").map Val.truthy).getD false) with
    | error e => rfl
    | ok r =>
      simp only [ok_bind, engineName_eq heng]
      cases engine db (eng.getD r.default) with
      | error e => rfl
      | ok e =>
        simp only [ok_bind]
        set b := chosen (given engNames a "backend") with hbdef
        have hcb : chosen (some b) = b := by
          rw [hbdef]
          cases given engNames a "backend" with
          | none => rfl
          | some v =>
            by_cases hv : v.truthy = true
            · simp [chosen_some, hv]
            · simp only [chosen_some, hv, Bool.false_eq_true, if_false]; rfl
        have ht := thrust_eq (db := db) (a := ⟨[.str ac, .str (eng.getD r.default)],
          ("backend", b) :: rest sigEng a.kw⟩) (ac := ac) (eng := some (eng.getD r.default))
          ⟨by simp, by simp [get_cons, hs], by simp [get_cons, ha, hen]⟩
          (by simp [given, Dict.get]) (by simpa [given, Dict.get] using EngineArg.name _)
        have hd := drag_eq (db := db) (a := ⟨[.str ac],
          ("backend", b) :: rest sigEng a.kw⟩) (ac := ac)
          ⟨by simp, by simp [get_cons, hs], by simp [get_cons, ha]⟩ (by simp [given, Dict.get])
        have hwr := wrap_eq (db := db) (a := ⟨[.str ac], rest sigEng a.kw⟩) (ac := ac)
          ⟨by simp, hs, by simp [ha]⟩ (by simp [given, Dict.get])
        simp [given, synonym_eq, flag_eq, get_cons, Dict.get, get_rest_eng "use_synonym" a.kw (by decide),
          get_rest_eng "force_engine" a.kw (by decide), get_rest_eng "wave_drag" a.kw (by decide),
          baseOf, hcb] at ht hd hwr
        rw [if_neg (by simp)]
        simp only [ok_bind]
        rw [ht, hd, hwr]
        simp only [flag_eq]
        cases Construct.thrust db ac (some (eng.getD r.default))
          ((a.kw.get "use_synonym").map Val.truthy)
          (((a.kw.get "force_engine").map Val.truthy).getD false) with
        | error e => rfl
        | ok t =>
          cases Construct.drag db ac ((a.kw.get "use_synonym").map Val.truthy) with
          | error e => rfl
          | ok d =>
            cases Construct.wrap db ac ((a.kw.get "use_synonym").map Val.truthy) with
            | error e => rfl
            | ok w =>
              simp only [Except.map, ok_bind]
              cases Construct.fuelModel db (lower ac) (upper (eng.getD r.default)) e.1 with
              | error e => rfl
              | ok m => simp [baseOf]; rfl

end Verif.Binding
