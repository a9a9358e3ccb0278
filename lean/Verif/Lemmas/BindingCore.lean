import Verif.Lemmas.Binding

/-!
# The constructors in terms of the values bound

Each constructor is the binding of its parameters followed by a function of the bound values
and of the keywords it reads.
-/

namespace Verif.Binding
open Verif.Tables Verif.Registry Spec

variable (db : DB)

theorem ex_bind_assoc {β γ δ : Type} (x : Except PyError β) (f : β → Except PyError γ)
    (g : γ → Except PyError δ) : ((x >>= f) >>= g) = x >>= fun b => f b >>= g := by
  cases x <;> rfl

theorem engBase_bind {β : Type} (ac eng b : Val) (kw : Dict Val) (K : Base → Except PyError β) :
    (withKw "backend" b (rest sigEng kw) >>= fun k =>
      engBase { pos := [ac, eng], kw := k } >>= K) = baseBody ac b >>= K := by
  rw [← engBase_eq ac eng b kw]
  exact (ex_bind_assoc _ _ _).symm

theorem dragBase_bind {β : Type} (ac b : Val) (kw : Dict Val) (K : Base → Except PyError β) :
    (withKw "backend" b (rest sigDrag kw) >>= fun k =>
      dragBase { pos := [ac], kw := k } >>= K) = baseBody ac b >>= K := by
  rw [← dragBase_eq ac b kw]
  exact (ex_bind_assoc _ _ _).symm

theorem aircraftCall_val (v : Val) (kw : Dict Val) (h : kw.get "ac" = none) :
    aircraftCall db { pos := [v], kw := kw } = v.asStr >>= fun s =>
      aircraft db s (((kw.get "use_synonym").map Val.truthy).getD false) := by
  simp only [aircraftCall, sigAircraft, bindArgs, h]
  cases kw.get "use_synonym" <;> rfl

theorem withKw_eng (b : Val) (kw : Dict Val) :
    withKw "backend" b (rest sigEng kw) = .ok (("backend", b) :: rest sigEng kw) := by
  simp [withKw, get_rest, sigEng]

/-- `Drag` after binding. -/
def dragCore (ac wave b : Val) (syn : Option Val) : Except PyError DragObj := do
  let base ← baseBody ac b
  let r ← aircraft db base.ac ((syn.map Val.truthy).getD false)
  let p ← Construct.polar db base.ac (syn.map Val.truthy)
  return { base := base, aircraft := r, polar := p, waveDrag := wave }

theorem drag_core (a : Args) : drag db a =
    bindArgs sigDrag (.object :: a.pos) a.kw >>= fun l => match l with
      | [_, ac, wave, b] => dragCore db ac wave b (a.kw.get "use_synonym")
      | _ => .error .typeError := by
  have ha : Dict.get "ac" (rest sigDrag a.kw) = none := by simp [get_rest, sigDrag]
  unfold drag
  congr 1
  funext l
  split
  · simp only [dragBase_bind, dragCore, aircraftCall_val db _ _ ha, synonymOf,
      get_rest_drag "use_synonym" a.kw (by decide)]
    rfl
  · rename_i hx
    split
    · exact absurd rfl (hx _ _ _ _)
    · rfl

/-- `Thrust` after binding. -/
def thrustCore (ac eng b : Val) (syn force : Option Val) : Except PyError ThrustObj := do
  let base ← baseBody ac b
  let r ← (ac.asStr >>= fun s => aircraft db s ((syn.map Val.truthy).getD false))
  let forceEngine := (force.getD (.bool false)).truthy
  let eng ← engineName r eng
  let e ← engine db (upper eng)
  if !forceEngine && !(r.options.any fun opt => isIn (upper opt) (upper e.2)) then
    throw .valueError
  return { base := base, records := (r, e.1) }

theorem thrust_core (a : Args) : thrust db a =
    bindArgs sigEng (.object :: a.pos) a.kw >>= fun l => match l with
      | [_, ac, eng, b] =>
        thrustCore db ac eng b (a.kw.get "use_synonym") (a.kw.get "force_engine")
      | _ => .error .typeError := by
  have ha : Dict.get "ac" (rest sigEng a.kw) = none := by simp [get_rest, sigEng]
  unfold thrust
  congr 1
  funext l
  split
  · rw [engBase_bind]
    simp only [aircraftCall_val db _ _ ha, get_rest_eng "use_synonym" a.kw (by decide)]
    rw [get_rest_eng "force_engine" a.kw (by decide)]
    rfl
  · rename_i hx
    split
    · exact absurd rfl (hx _ _ _ _)
    · rfl

/-- `Emission` after binding. -/
def emissionCore (ac eng b : Val) (syn : Option Val) : Except PyError EmissionObj := do
  let base ← baseBody ac b
  let r ← (ac.asStr >>= fun s => aircraft db s ((syn.map Val.truthy).getD false))
  let eng ← engineName r eng
  let e ← engine db eng
  return { base := base, records := (r, e.1) }

theorem emission_core (a : Args) : emission db a =
    bindArgs sigEng (.object :: a.pos) a.kw >>= fun l => match l with
      | [_, ac, eng, b] => emissionCore db ac eng b (a.kw.get "use_synonym")
      | _ => .error .typeError := by
  have ha : Dict.get "ac" (rest sigEng a.kw) = none := by simp [get_rest, sigEng]
  unfold emission
  congr 1
  funext l
  split
  · simp only [engBase_bind, emissionCore, aircraftCall_val db _ _ ha,
      get_rest_eng "use_synonym" a.kw (by decide)]
  · rename_i hx
    split
    · exact absurd rfl (hx _ _ _ _)
    · rfl

theorem wrap_core (a : Args) : wrap db a =
    bindArgs sigWrap (.object :: a.pos) a.kw >>= fun l => match l with
      | [_, ac] => ac.asStr >>= fun s =>
        Construct.wrap db s ((a.kw.get "use_synonym").map Val.truthy)
      | _ => .error .typeError := by
  unfold wrap
  congr 1
  funext l
  split
  · simp only [synonymOf, get_rest_wrap "use_synonym" a.kw (by decide)]
  · rename_i hx
    split
    · exact absurd rfl (hx _ _)
    · rfl

/-- `FuelFlow` after binding. -/
def fuelCore (ac eng b : Val) (syn force wave : Option Val) : Except PyError FuelObj := do
  let base ← baseBody ac b
  let r ← aircraft db base.ac ((syn.map Val.truthy).getD false)
  let eng ← engineName r eng
  let e ← engine db eng
  let t ← thrustCore db ac (.str eng) base.backend syn force
  let d ← dragCore db ac (wave.getD (.bool false)) base.backend syn
  let w ← (ac.asStr >>= fun s => Construct.wrap db s (syn.map Val.truthy))
  let m ← Construct.fuelModel db base.ac (upper eng) e.1
  return { base := base, aircraft := r, engine := e.1, thrust := t, drag := d, wrap := w,
           model := m }

theorem fuel_core (a : Args) : fuelFlow db a =
    bindArgs sigEng (.object :: a.pos) a.kw >>= fun l => match l with
      | [_, ac, eng, b] => fuelCore db ac eng b (a.kw.get "use_synonym")
          (a.kw.get "force_engine") (a.kw.get "wave_drag")
      | _ => .error .typeError := by
  have ha : Dict.get "ac" (rest sigEng a.kw) = none := by simp [get_rest, sigEng]
  have hs : Dict.get "self" (rest sigEng a.kw) = none := by simp [get_rest, sigEng]
  have he : Dict.get "eng" (rest sigEng a.kw) = none := by simp [get_rest, sigEng]
  have hsy := get_rest_eng "use_synonym" a.kw (by decide)
  have hfo := get_rest_eng "force_engine" a.kw (by decide)
  have hwd := get_rest_eng "wave_drag" a.kw (by decide)
  have ht : ∀ x y b : Val, thrust db { pos := [x, y], kw := ("backend", b) :: rest sigEng a.kw } =
      thrustCore db x y b (a.kw.get "use_synonym") (a.kw.get "force_engine") := by
    intro x y b
    rw [thrust_core]
    simp [sigEng, bindArgs, get_cons, Except.map, ok_bind] at hs ha he hsy hfo ⊢
    simp [hs, ha, he, hsy, hfo, ok_bind]
  have hd : ∀ x b : Val, drag db { pos := [x], kw := ("backend", b) :: rest sigEng a.kw } =
      dragCore db x ((a.kw.get "wave_drag").getD (.bool false)) b (a.kw.get "use_synonym") := by
    intro x b
    rw [drag_core]
    simp [sigDrag, bindArgs, get_cons, Except.map, ok_bind]
    simp [hs, ha, hsy, hwd, ok_bind]
    cases a.kw.get "wave_drag" <;> simp [ok_bind]
  have hw : ∀ x : Val, wrap db { pos := [x], kw := rest sigEng a.kw } =
      x.asStr >>= fun s => Construct.wrap db s ((a.kw.get "use_synonym").map Val.truthy) := by
    intro x
    rw [wrap_core]
    simp [sigWrap, bindArgs, hs, ha, hsy, ok_bind, Except.map]
  unfold fuelFlow
  congr 1
  funext l
  split
  · rw [engBase_bind]
    simp only [aircraftCall_val db _ _ ha, hsy, withKw_eng, ok_bind, ht, hd, hw]
    rfl
  · rename_i hx
    split
    · exact absurd rfl (hx _ _ _ _)
    · rfl

/-! ### Keywords not read -/

theorem bind_same {ps : Sig} {a a' : Args} (h : SameOn (ps.map (·.1)) a a') :
    bindArgs ps (.object :: a.pos) a.kw = bindArgs ps (.object :: a'.pos) a'.kw := by
  rw [h.1]
  exact bind_congr ps _ _ _ h.2

theorem SameOn.mono {l l' : List String} {a a' : Args} (h : SameOn l a a')
    (hl : ∀ n ∈ l', n ∈ l) : SameOn l' a a' :=
  ⟨h.1, fun n hn => h.2 n (hl n hn)⟩

/-! ### Subclasses -/

theorem bind_sub {a : Args} {k : Val} (h : Legal ["ac", "eng"] a) (hb : a.kw.get "backend" = none) :
    (∃ ac eng, bindArgs sigSub (.object :: a.pos) a.kw = .ok [.object, ac, eng] ∧
      bindArgs sigEng (.object :: a.pos) (("backend", k) :: a.kw) = .ok [.object, ac, eng, k]) ∨
    (bindArgs sigSub (.object :: a.pos) a.kw = .error .typeError ∧
      bindArgs sigEng (.object :: a.pos) (("backend", k) :: a.kw) = .error .typeError) := by
  obtain ⟨h1, hs, h2⟩ := h
  obtain ⟨pos, kw⟩ := a
  simp only at h1 hs h2 hb ⊢
  rcases pos with _ | ⟨x, _ | ⟨y, _ | ⟨z, l⟩⟩⟩
  · simp only [sigSub, sigEng, bindArgs, get_cons, hs]
    cases kw.get "ac" <;> cases kw.get "eng" <;> simp [Except.map]
  · have := h2 "ac" (by simp)
    simp only [sigSub, sigEng, bindArgs, get_cons, hs, this]
    cases kw.get "eng" <;> simp [Except.map, hs, this]
  · have := h2 "ac" (by simp)
    have h3 := h2 "eng" (by simp)
    simp [sigSub, sigEng, bindArgs, get_cons, hs, this, h3, Except.map]
  · simp at h1 <;> omega

end Verif.Binding
