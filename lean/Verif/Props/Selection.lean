import Verif.Props.Registry
import Verif.Props.Construct

/-!
# C102, C103: which records a request selects
-/

namespace Verif.Props
open Verif Verif.Data Verif.Registry Verif.Tables Verif.Construct Verif.Spec

/-- `"default"`. -/
def defaultCode : Str := [100, 101, 102, 97, 117, 108, 116]

theorem find_first {β : Type} (p : β → Bool) (l : List β) :
    (∀ x, l.find? p = some x ↔ FirstWith (fun y => p y = true) l x) ∧
    (l.find? p = none ↔ ∀ x ∈ l, ¬ p x = true) := by
  constructor
  · intro x
    rw [List.find?_eq_some_iff_append]
    constructor
    · rintro ⟨h, a, b, rfl, h2⟩
      exact ⟨a, b, rfl, h, fun y hy => by simpa using h2 y hy⟩
    · rintro ⟨a, b, rfl, h, h2⟩
      exact ⟨h, a, b, rfl, fun y hy => by simpa using h2 y hy⟩
  · simp

theorem fuelRow_first (db : DB) (ac : Str) :
    (∀ r, fuelRow db (lower ac) = some r ↔
      FirstWith (fun x : FuelRow => SameText x.typecode ac) db.fuel r) ∧
    (fuelRow db (lower ac) = none ↔ ∀ r ∈ db.fuel, ¬ SameText r.typecode ac) := by
  have h := find_first (fun r : FuelRow => lower r.typecode == lower ac) db.fuel
  simp only [beq_iff_eq, lower_eq_iff] at h
  exact h

/-- **C102 (coefficients).** A constructed fuel model takes its coefficients from the first row
of the fuel table whose type code is the requested one up to letter case, and otherwise from the
first row called `default`. Synonyms play no role. -/
theorem C102_fuel_coefficients (db : DB) (ac : Str) (eng : Option Str) (syn : Option Bool)
    (force : Bool) (p : FuelParts) (h : fuel db ac eng syn force = .ok p) :
    (∀ r, FirstWith (fun x : FuelRow => SameText x.typecode ac) db.fuel r → p.model.1 = r) ∧
    ((∀ r ∈ db.fuel, ¬ SameText r.typecode ac) →
      FirstWith (fun x : FuelRow => SameText x.typecode defaultCode) db.fuel p.model.1) := by
  have hm : ∃ e t, fuelModel db (lower ac) t e = .ok p.model := by
    unfold fuel at h
    simp only [bind, Except.bind, pure, Except.pure] at h
    repeat' split at h
    all_goals first
      | (cases h; done)
      | (cases h; exact ⟨_, _, by assumption⟩)
  obtain ⟨e, t, hm⟩ := hm
  obtain ⟨f1, f2⟩ := fuelRow_first db ac
  have d1 := (fuelRow_first db defaultCode).1
  have hd : lower defaultCode = defaultStr := by decide
  rw [hd] at d1
  constructor
  · intro r hr
    unfold fuelModel at hm
    rw [(f1 r).2 hr] at hm
    simp only at hm
    split_ifs at hm
    · rw [← Except.ok.inj hm]
    · split at hm
      · rw [← Except.ok.inj hm]
      · cases hm
    · rw [← Except.ok.inj hm]
  · intro hn
    unfold fuelModel at hm
    rw [f2.2 hn] at hm
    simp only at hm
    split at hm
    · next r hr => rw [← Except.ok.inj hm]; exact (d1 r).1 hr
    · cases hm

/-- **C102 (no row).** Where the constructor succeeds with some fuel table, it raises `IndexError`
with a fuel table that has neither a row for the type nor a `default` row. -/
theorem C102_no_row (db : DB) (ac : Str) (eng : Option Str) (syn : Option Bool) (force : Bool)
    (table : List FuelRow) {p : FuelParts}
    (h : fuel { db with fuel := table } ac eng syn force = .ok p)
    (hno : ∀ r ∈ db.fuel, ¬ SameText r.typecode ac ∧ ¬ SameText r.typecode defaultCode) :
    fuel db ac eng syn force = .error .indexError := by
  have n1 := (fuelRow_first db ac).2.2 fun r hr => (hno r hr).1
  have n2 := (fuelRow_first db defaultCode).2.2 fun r hr => (hno r hr).2
  rw [show lower defaultCode = defaultStr by decide] at n2
  have h0 : ∀ t e, fuelModel db (lower ac) t e = .error .indexError := by
    intro t e
    unfold fuelModel
    rw [n1]
    simp only [n2]
  change (do
    let a ← Registry.aircraft db (lower ac) (syn.getD false)
    let e ← engine db (eng.getD a.default)
    let t ← Construct.thrust db ac (some (eng.getD a.default)) syn force
    let d ← Construct.drag db ac syn
    let w ← Construct.wrap db ac syn
    let m ← fuelModel { db with fuel := table } (lower ac) (upper (eng.getD a.default)) e.1
    return (⟨a, e.1, t, d, w, m⟩ : FuelParts)) = _ at h
  unfold fuel
  simp only [h0]
  simp only [bind, Except.bind, pure, Except.pure] at h ⊢
  cases h1 : Registry.aircraft db (lower ac) (syn.getD false) with
  | error e => rw [h1] at h; cases h
  | ok a =>
  rw [h1] at h
  simp only at h ⊢
  cases h2 : engine db (eng.getD a.default) with
  | error e => rw [h2] at h; cases h
  | ok e =>
  rw [h2] at h
  simp only at h ⊢
  cases h3 : Construct.thrust db ac (some (eng.getD a.default)) syn force with
  | error e => rw [h3] at h; cases h
  | ok t =>
  rw [h3] at h
  simp only at h ⊢
  cases h4 : Construct.drag db ac syn with
  | error e => rw [h4] at h; cases h
  | ok d =>
  rw [h4] at h
  simp only at h ⊢
  cases h5 : Construct.wrap db ac syn with
  | error e => rw [h5] at h; cases h
  | ok w => rfl

/-- The shipped A320 with the fuel table emptied. -/
example : fuel { shipped with fuel := [] } [65, 51, 50, 48] none none false =
    .error .indexError := by
  have key : ∀ x : Except PyError FuelParts, Except.isOk' x = true → ∃ p, x = .ok p := by
    intro x
    cases x <;> simp [Except.isOk']
  obtain ⟨p, hp⟩ := key (fuel shipped [65, 51, 50, 48] none none false) (by decide +kernel)
  exact C102_no_row { shipped with fuel := [] } _ _ _ _ shipped.fuel hp (by simp)

/-- **C102 (scale).** With a row of its own, a type other than `default` is scaled by 1 if the
engine asked for has the row's engine name up to letter case, and otherwise by the ratio of the
take-off fuel flows of the two engines; without a row the scale is the take-off fuel flow of its
engine. Here `want` is the engine argument, or the default engine when none is given. -/
theorem C102_fuel_scale (db : DB) (ac : Str) (eng : Option Str) (syn : Option Bool)
    (force : Bool) (p : FuelParts) (h : fuel db ac eng syn force = .ok p) :
    ∃ want, want = eng.getD p.ac.default ∧ (∃ nm, engine db want = .ok (p.eng, nm)) ∧
    (∀ r, FirstWith (fun x : FuelRow => SameText x.typecode ac) db.fuel r →
      ¬ SameText ac defaultCode →
      (SameText want r.engineType → scale p.model.2 = 1) ∧
      (¬ SameText want r.engineType → ∃ ref nm, engine db r.engineType = .ok (ref, nm) ∧
        scale p.model.2 = real p.eng.ff.toff / real ref.ff.toff)) ∧
    ((∀ r ∈ db.fuel, ¬ SameText r.typecode ac) → scale p.model.2 = real p.eng.ff.toff) := by
  have hm : (∃ nm, engine db (eng.getD p.ac.default) = .ok (p.eng, nm)) ∧
      fuelModel db (lower ac) (upper (eng.getD p.ac.default)) p.eng = .ok p.model := by
    unfold fuel at h
    simp only [bind, Except.bind, pure, Except.pure] at h
    repeat' split at h
    all_goals first
      | (cases h; done)
      | (cases h; exact ⟨⟨_, by assumption⟩, by assumption⟩)
  obtain ⟨he, hm⟩ := hm
  obtain ⟨f1, f2⟩ := fuelRow_first db ac
  have hd : lower defaultCode = defaultStr := by decide
  refine ⟨_, rfl, he, ?_, ?_⟩
  · intro r hr hnd
    have hnd' : lower ac ≠ defaultStr := by
      rw [← hd]; exact fun hh => hnd ((lower_eq_iff _ _).1 hh)
    unfold fuelModel at hm
    rw [(f1 r).2 hr] at hm
    simp only [if_neg hnd'] at hm
    constructor
    · intro hs
      rw [if_neg (by simpa using (upper_eq_iff _ _).2 hs)] at hm
      cases h' : p.model
      rw [h'] at hm
      cases hm
      rfl
    · intro hs
      rw [if_pos (fun hh => hs ((upper_eq_iff _ _).1 hh))] at hm
      split at hm
      · next ref hr =>
        cases h' : p.model
        rw [h'] at hm
        cases hm
        exact ⟨ref.1, ref.2, hr, rfl⟩
      · cases hm
  · intro hn
    unfold fuelModel at hm
    rw [f2.2 hn] at hm
    simp only at hm
    split at hm
    · cases h' : p.model
      rw [h'] at hm
      cases hm
      rfl
    · cases hm

/-- Both cases occur: the A320 has a row of its own; the synonym A306 has none. -/
example : (∃ p, fuel shipped [65, 51, 50, 48] none none false = .ok p) ∧
    (∃ r ∈ shipped.fuel, lower r.typecode = [97, 51, 50, 48]) ∧
    (∃ p, fuel shipped [65, 51, 48, 54] none (some true) false = .ok p) ∧
    (∀ r ∈ shipped.fuel, lower r.typecode ≠ [97, 51, 48, 54]) := by
  have key : ∀ x : Except PyError FuelParts, (∃ p, x = .ok p) ↔ Except.isOk' x = true := by
    intro x
    cases x <;> simp [Except.isOk']
  simp only [key]
  decide +kernel

theorem lookup_first {β : Type} (k : Str) (l : List (Str × β)) :
    (∀ v, lookup k l = some v → FirstWith (fun e : Str × β => e.1 = k) l (k, v)) ∧
    (lookup k l = none → ∀ e ∈ l, e.1 ≠ k) := by
  induction l with
  | nil => simp [lookup]
  | cons e l ih =>
    obtain ⟨k', v'⟩ := e
    unfold lookup
    by_cases hk : k' = k
    · subst hk
      rw [if_pos rfl]
      refine ⟨fun v h => ?_, fun h => by cases h⟩
      cases h
      exact ⟨[], l, rfl, rfl, by simp⟩
    · rw [if_neg hk]
      constructor
      · intro v h
        obtain ⟨a, b, h1, h2, h3⟩ := ih.1 v h
        refine ⟨(k', v') :: a, b, by rw [h1]; rfl, h2, ?_⟩
        intro y hy
        rcases List.mem_cons.1 hy with rfl | hy
        · exact hk
        · exact h3 y hy
      · intro h y hy
        rcases List.mem_cons.1 hy with rfl | hy
        · exact hk
        · exact ih.2 h y hy

/-- **C103 (synonyms).** A code without a file of its own but with a synonym raises `ValueError`
without `use_synonym`; with it the answer is that for the first synonym listed, provided that has
a file. No wildcard characters. -/
theorem C103_synonym (db : DB) (ac new : Str) (hm : 42 ∉ ac ∧ 63 ∉ ac ∧ 91 ∉ ac)
    (hnew : 42 ∉ new ∧ 63 ∉ new ∧ 91 ∉ new) (hn : (db.aircraft.map (·.1)).Nodup)
    (hno : ∀ f ∈ db.aircraft, ¬ SameText f.1 ac) (hlow : ∀ f ∈ db.aircraft, lower f.1 = f.1)
    (hs : FirstWith (fun e : Str × Str => e.1 = lower ac) db.aircraftSyn (lower ac, new)) :
    aircraft db ac false = .error .valueError ∧
    (∀ r, (new, r) ∈ db.aircraft → aircraft db ac true = .ok r) ∧
    ((∀ f ∈ db.aircraft, f.1 ≠ new) → aircraft db ac true = .error .indexError) := by
  have mag : ∀ s : Str, (42 ∉ s ∧ 63 ∉ s ∧ 91 ∉ s) → hasMagic s = false := by
    intro s h
    unfold hasMagic
    rw [List.any_eq_false]
    intro c hc
    have h1 : c ≠ 42 := fun e => h.1 (e ▸ hc)
    have h2 : c ≠ 63 := fun e => h.2.1 (e ▸ hc)
    have h3 : c ≠ 91 := fun e => h.2.2 (e ▸ hc)
    simp [h1, h2, h3]
  have hm' : hasMagic (lower ac) = false := by
    have := mag ac hm
    unfold hasMagic lower at *
    rw [List.any_map, List.any_eq_false]
    rw [List.any_eq_false] at this
    intro c hc
    have := this c hc
    simp only [Function.comp, loC] at this ⊢
    split_ifs
    · simp; omega
    · exact this
  have g0 : glob db.aircraft (lower ac) = [] := by
    unfold glob
    simp only [hm', Bool.false_eq_true, if_false]
    rw [List.filter_eq_nil_iff]
    intro f hf
    simp only [beq_iff_eq]
    intro h
    refine hno f hf ((lower_eq_iff _ _).1 ?_)
    rw [hlow f hf, h]
  have hl : lookup (lower ac) db.aircraftSyn = some new := by
    rcases h : lookup (lower ac) db.aircraftSyn with _ | v
    · obtain ⟨a, b, h1, -⟩ := hs
      exact absurd rfl ((lookup_first _ _).2 h (lower ac, new) (by rw [h1]; simp))
    · have := firstWith_unique ((lookup_first _ _).1 v h) hs
      rw [(Prod.mk.inj this).2]
  refine ⟨?_, ?_, ?_⟩
  · simp [Registry.aircraft, g0, hl]
  · intro r hr
    have hg : ∃ t, glob db.aircraft new = (new, r) :: t := by
      unfold glob
      simp only [mag new hnew, Bool.false_eq_true, if_false]
      rcases h : db.aircraft.filter (fun f => f.1 == new) with _ | ⟨f, t⟩
      · rw [List.filter_eq_nil_iff] at h
        exact absurd (beq_self_eq_true new) (h _ hr)
      · have hf : f ∈ db.aircraft.filter (fun f => f.1 == new) := by rw [h]; simp
        rw [List.mem_filter, beq_iff_eq] at hf
        have := List.inj_on_of_nodup_map hn hf.1 hr hf.2
        exact ⟨t, by rw [← this]; exact h⟩
    obtain ⟨t, hg⟩ := hg
    simp [Registry.aircraft, g0, hl, hg]
  · intro h
    have hg : glob db.aircraft new = [] := by
      unfold glob
      simp only [mag new hnew, Bool.false_eq_true, if_false]
      rw [List.filter_eq_nil_iff]
      intro f hf
      simpa using h f hf
    simp [Registry.aircraft, g0, hl, hg]

/-- **C103 (constructors).** Whatever error `aircraft(ac)` raises, `Emission`, `Thrust`, `Drag` and
`FuelFlow` raise when `use_synonym` is left out or `False`, for every engine; so a code known only by
a synonym is rejected by default. With `use_synonym=True` `Emission` pairs the synonym's record with
the engine asked for, or with its default engine. -/
theorem C103_constructors (db : DB) (ac : Str) :
    (∀ e, Registry.aircraft db ac false = .error e → ∀ syn : Option Bool, syn ≠ some true →
      (∀ eng, emission db ac eng syn = .error e) ∧
      (∀ eng force, thrust db ac eng syn force = .error e) ∧
      drag db ac syn = .error e ∧
      (∀ eng force, fuel db ac eng syn force = .error e)) ∧
    (∀ r x, Registry.aircraft db ac true = .ok r →
      (∀ eng, engine db eng = .ok x → emission db ac (some eng) (some true) = .ok (r, x.1)) ∧
      (engine db r.default = .ok x → emission db ac none (some true) = .ok (r, x.1))) := by
  have hll : ∀ syn, Registry.aircraft db (lower ac) syn = Registry.aircraft db ac syn := by
    intro syn
    have : lower (lower ac) = lower ac := (lower_eq_iff _ _).2 ((lower_eq_iff _ _).1 (by
      unfold lower; rw [List.map_map]; congr 1; funext c; simp only [Function.comp, loC]
      split_ifs <;> omega))
    unfold Registry.aircraft
    rw [this]
  constructor
  · intro e he syn hsyn
    have hd : syn.getD false = false := by
      match syn, hsyn with
      | none, _ => rfl
      | some false, _ => rfl
      | some true, h => exact absurd rfl h
    have hel := (hll false).trans he
    refine ⟨fun eng => ?_, fun eng force => ?_, ?_, fun eng force => ?_⟩
    · unfold emission; rw [hd, he]; rfl
    · unfold thrust; rw [hd, he]; rfl
    · unfold drag; rw [hd, hel]; rfl
    · unfold fuel; rw [hd, hel]; rfl
  · intro r x hr
    constructor
    · intro eng hx
      simp only [emission, Option.getD_some, hr, bind, Except.bind, hx, pure, Except.pure]
    · intro hx
      simp only [emission, Option.getD_some, Option.getD_none, hr, bind, Except.bind, hx, pure, Except.pure]

/-- **C103 (kinematics).** For a code without a file of its own, `WRAP(ac)` follows synonyms unless
told not to, unlike the other classes; without a synonym it raises `ValueError`. -/
theorem C103_wrap (db : DB) (ac : Str) (hno : ∀ f ∈ db.wrap, ¬ SameText f.1 ac) :
    wrap db ac (some false) = .error .valueError ∧
    wrap db ac none = wrap db ac (some true) ∧
    ((∀ e ∈ db.wrapSyn, e.1 ≠ lower ac) → wrap db ac none = .error .valueError) ∧
    (∀ new w, FirstWith (fun e : Str × Str => e.1 = lower ac) db.wrapSyn (lower ac, new) →
      FirstWith (fun e : Str × List WrapRow => e.1 = new) db.wrap (new, w) →
      wrap db ac none = .ok w) := by
  have hm : lower ac ∉ db.wrap.map (fun f => lower f.1) := by
    intro h
    obtain ⟨f, hf, h⟩ := List.mem_map.1 h
    exact hno f hf ((lower_eq_iff _ _).1 h)
  refine ⟨?_, rfl, ?_, ?_⟩
  · simp [Construct.wrap, hm]
  · intro h
    have hl : lookup (lower ac) db.wrapSyn = none := by
      rcases hl : lookup (lower ac) db.wrapSyn with _ | v
      · rfl
      · obtain ⟨a, b, h1, -⟩ := (lookup_first _ _).1 v hl
        exact absurd rfl (h (lower ac, v) (by rw [h1]; simp))
    simp [Construct.wrap, hm, hl]
  · intro new w hs hw
    have key : ∀ {β : Type} (k : Str) (l : List (Str × β)) (v : β),
        FirstWith (fun e : Str × β => e.1 = k) l (k, v) → lookup k l = some v := by
      intro β k l v hv
      rcases h : lookup k l with _ | u
      · obtain ⟨a, b, h1, -⟩ := hv
        exact absurd rfl ((lookup_first _ _).2 h (k, v) (by rw [h1]; simp))
      · have := firstWith_unique ((lookup_first _ _).1 u h) hv
        rw [(Prod.mk.inj this).2]
    simp [Construct.wrap, hm, key _ _ _ hs, key _ _ _ hw]

/-- **C103 (engine options).** `aircraft_engine_options` returns the options of the record that
`aircraft(ac)` returns and raises what that raises: it cannot follow synonyms. -/
theorem C103_engine_options (db : DB) (ac : Str) :
    (∀ r, aircraft db ac false = .ok r → engineOptions db ac = .ok r.options) ∧
    (∀ e, aircraft db ac false = .error e → engineOptions db ac = .error e) := by
  constructor
  · intro r h; unfold engineOptions; rw [h]; rfl
  · intro e h; unfold engineOptions; rw [h]; rfl

/-- **C103 (shipped tables).** For every shipped synonym except `crj9`, `aircraft_engine_options`
raises `ValueError`, though `aircraft(ac, use_synonym=True)` succeeds. `crj9` has a file of its
own: its synonym entry is never used and `available_aircraft(use_synonym=True)` lists it twice. -/
theorem C103_shipped_synonyms :
    (∀ e ∈ shipped.aircraftSyn, e.1 ≠ [99, 114, 106, 57] →
      engineOptions shipped e.1 = .error .valueError ∧ ∃ r, aircraft shipped e.1 true = .ok r) ∧
    (∃ r, ([99, 114, 106, 57], r) ∈ shipped.aircraft ∧
      (∀ syn, aircraft shipped [99, 114, 106, 57] syn = .ok r) ∧
      engineOptions shipped [99, 114, 106, 57] = .ok r.options) ∧
    (availableAircraft shipped true).count [99, 114, 106, 57] = 2 ∧
    (∀ ac ∈ availableAircraft shipped true, ac ≠ [99, 114, 106, 57] →
      (availableAircraft shipped true).count ac = 1) := by
  refine ⟨?_, ?_, by decide +kernel, by decide +kernel⟩
  · have : shipped.aircraftSyn.all (fun e => decide (e.1 = [99, 114, 106, 57]) ||
        ((match engineOptions shipped e.1 with
        | .error .valueError => true
        | _ => false) && Except.isOk' (aircraft shipped e.1 true))) = true := by decide +kernel
    intro e he hne
    have h := List.all_eq_true.1 this e he
    rw [Bool.or_eq_true, Bool.and_eq_true, decide_eq_true_eq] at h
    obtain ⟨h1, h2⟩ := h.resolve_left hne
    constructor
    · split at h1
      · assumption
      · cases h1
    · cases h : aircraft shipped e.1 true with
      | error x => rw [h] at h2; simp [Except.isOk'] at h2
      | ok r => exact ⟨r, rfl⟩
  · have hn : (shipped.aircraft.map (·.1)).Nodup := by decide +kernel
    have hmem : [99, 114, 106, 57] ∈ shipped.aircraft.map (·.1) := by decide +kernel
    obtain ⟨⟨c, r⟩, hr, hc⟩ := List.mem_map.1 hmem
    simp only at hc
    subst hc
    have hs : SameText [99, 114, 106, 57] [99, 114, 106, 57] := (lower_eq_iff _ _).1 rfl
    have key : ∀ syn, aircraft shipped [99, 114, 106, 57] syn = .ok r := fun syn =>
      (C70_aircraft_exact shipped [99, 114, 106, 57] syn (by decide) hn).1 _ r hs (by decide) hr
    exact ⟨r, hr, key, (C103_engine_options shipped _).1 r (key false)⟩

/-- The hypotheses of `C103_synonym` hold for `A306`, listed as a synonym of `a332`. -/
example : (shipped.aircraft.map (·.1)).Nodup ∧ (∀ f ∈ shipped.aircraft, lower f.1 = f.1) ∧
    (∀ f ∈ shipped.aircraft, f.1 ≠ lower [65, 51, 48, 54]) ∧
    lookup (lower [65, 51, 48, 54]) shipped.aircraftSyn = some [97, 51, 51, 50] ∧
    [97, 51, 51, 50] ∈ shipped.aircraft.map (·.1) := by decide +kernel

/-- A code known only by a synonym, for the constructors and for `WRAP`. -/
example : (∃ e, Registry.aircraft shipped [65, 51, 48, 54] false = .error e) ∧
    (∃ r, Registry.aircraft shipped [65, 51, 48, 54] true = .ok r) ∧
    (∃ e ∈ shipped.wrapSyn, (∀ f ∈ shipped.wrap, lower f.1 ≠ lower e.1) ∧
      ∃ f ∈ shipped.wrap, f.1 = e.2) := by
  have key : ∀ x : Except PyError AircraftRow, ((∃ p, x = .ok p) ↔ Except.isOk' x = true) ∧
      ((∃ p, x = .error p) ↔ Except.isOk' x = false) := by
    intro x
    cases x <;> simp [Except.isOk']
  simp only [key]
  decide +kernel

end Verif.Props
