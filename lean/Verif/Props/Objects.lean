import Verif.Lemmas.Objects
import Verif.Data.Shipped

/-!
# C142: which objects depend on each other
-/

namespace Verif.Props
open Verif.Objects Verif.Tables Verif.Registry

/-- **C142 (history).** As long as the program changes no record, every constructor call and every
`prop.aircraft`/`prop.engine` call, whatever was created or asked for before and whatever is evicted
from the cache, raises exactly what it raises in a fresh interpreter, or gives an object whose methods
read the numbers they read in a fresh interpreter, then and ever after. -/
theorem C142_history (db : DB) (before after : List Op) (r : Req)
    (hb : ∀ op ∈ before, op.Reads) (ha : ∀ op ∈ after, op.Reads) :
    match (create db r (run db Store.empty before)).1, alone db r with
    | .error x, .error y => x = y
    | .ok o, .ok v => view (run db Store.empty (before ++ Op.new r :: after)) o = some v
    | _, _ => False := by
  have hc : Clean db (run db Store.empty before) := Clean.empty.run hb
  have hi : Inv (run db Store.empty before) := Inv.empty.run before
  have hd := does_create (db := db) r _ hc
  have hi' := hi.step (db := db) (.new r)
  have e : run db Store.empty (before ++ Op.new r :: after) =
      run db (step db (run db Store.empty before) (.new r)) after := by
    simp only [run, List.foldl_append, List.foldl_cons]
  rw [e]
  simp only [step] at hi' ⊢
  revert hd hi'
  rcases create db r (run db Store.empty before) with ⟨x, s'⟩
  cases x <;> cases alone db r
  · exact fun h _ => h.1
  · exact fun h _ => h
  · exact fun h _ => h
  · intro h hi'
    refine view_run hi' ((view_objs s' _ _).trans h.1) ?_
    intro op hop
    have := ha op hop
    cases op with
    | new r => trivial
    | _ => exact this.elim

/-- **C142 (others' doings).** Whatever has happened, changes included, what the methods of an object
read is changed by no later call and by no change to a record other than its own. -/
theorem C142_undisturbed (db : DB) (before ops : List Op) (o : Obj)
    (ho : o ∈ (run db Store.empty before).objs) (hops : ∀ op ∈ ops, op.Spares o) :
    ∃ v, view (run db Store.empty before) o = some v ∧
      view (run db Store.empty (before ++ ops)) o = some v := by
  have hi : Inv (run db Store.empty before) := Inv.empty.run before
  obtain ⟨v, hv⟩ := hi.view ho
  refine ⟨v, hv, ?_⟩
  have e : run db Store.empty (before ++ ops) = run db (run db Store.empty before) ops := by
    simp only [run, List.foldl_append]
  rw [e]
  exact view_run hi hv hops

/-- **C142 (`Thrust`).** A `Thrust` object, once created, is changed by nothing at all, also not by
changes to the engine or aircraft record it was made from. -/
theorem C142_thrust_fixed (db : DB) (before ops : List Op) (t : AircraftRow × EngineRow)
    (ho : Obj.thrust t ∈ (run db Store.empty before).objs) :
    view (run db Store.empty (before ++ ops)) (.thrust t) =
      view (run db Store.empty before) (.thrust t) := by
  obtain ⟨v, h1, h2⟩ := C142_undisturbed db before ops _ ho (by
    intro op _
    cases op <;> simp [Op.Spares, Obj.engine?, Obj.aircrafts, Obj.polars])
  rw [h1, h2]

/-- **C142 (own records).** No two objects have an aircraft or polar record in common, and a
`FuelFlow` and its `Drag` have one aircraft record each. A change made through the aircraft record
of one object is not seen by any other. -/
theorem C142_own_records (db : DB) (ops : List Op) :
    ((run db Store.empty ops).objs.flatMap Obj.aircrafts).Nodup ∧
    ((run db Store.empty ops).objs.flatMap Obj.polars).Nodup ∧
    ∀ (i j : ℕ) (o o' : Obj), i ≠ j → (run db Store.empty ops).objs[i]? = some o →
      (run db Store.empty ops).objs[j]? = some o' → ∀ a ∈ o.aircrafts, ∀ g,
      view (run db Store.empty (ops ++ [.setAircraft a g])) o' = view (run db Store.empty ops) o' := by
  have hi : Inv (run db Store.empty ops) := Inv.empty.run ops
  refine ⟨hi.ac, hi.pol, ?_⟩
  intro i j o o' hij h1 h2 a ha g
  obtain ⟨v, e1, e2⟩ := C142_undisturbed db ops [.setAircraft a g] o' (List.mem_of_getElem? h2) (by
    intro op hop
    rw [List.mem_singleton] at hop
    subst hop
    intro ha'
    have hn := (List.nodup_flatMap.1 hi.ac).2
    rw [List.pairwise_iff_getElem] at hn
    obtain ⟨li, ei⟩ := List.getElem?_eq_some_iff.1 h1
    obtain ⟨lj, ej⟩ := List.getElem?_eq_some_iff.1 h2
    rcases lt_or_gt_of_ne hij with h | h
    · exact hn i j li lj h (by rw [ei]; exact ha) (by rw [ej]; exact ha')
    · exact hn j i lj li h (by rw [ej]; exact ha') (by rw [ei]; exact ha))
  rw [e1, e2]

/-- **C142 (shared engine record).** Two objects (`FuelFlow`, `Emission`, or a record from
`prop.engine`) whose engine is asked for under the same string have one and the same engine record,
whatever happened before and whatever happened in between, provided that fewer than 128 other engine
strings were asked for. -/
theorem C142_shared (db : DB) (before between : List Op) (r₁ r₂ : Req) (o₁ o₂ : Obj) (s₁ s₂ : Store)
    (q : Str) (h₁ : create db r₁ (run db Store.empty before) = (.ok o₁, s₁))
    (h₂ : create db r₂ (run db Store.empty (before ++ Op.new r₁ :: between)) = (.ok o₂, s₂))
    (hq₁ : q ∈ key db r₁) (hq₂ : q ∈ key db r₂) (K : Finset Str) (hK : K.card < 128)
    (ha : ∀ k ∈ asks db r₁, k = q ∨ k ∈ K)
    (hb : ∀ r, Op.new r ∈ between → ∀ k ∈ asks db r, k = q ∨ k ∈ K) :
    ∃ a, o₁.engine? = some a ∧ o₂.engine? = some a := by
  have hi : Inv (run db Store.empty before) := Inv.empty.run before
  obtain ⟨a, e, hh⟩ := create_held hK hi.ok h₁ hq₁ ha
  refine ⟨a, e, ?_⟩
  have e2 : run db Store.empty (before ++ Op.new r₁ :: between) =
      run db { s₁ with objs := s₁.objs ++ [o₁] } between := by
    simp only [run, List.foldl_append, List.foldl_cons]
    congr 1
    have : step db (run db Store.empty before) (.new r₁) = { s₁ with objs := s₁.objs ++ [o₁] } := by
      simp only [step, h₁]
    exact this
  rw [e2] at h₂
  exact create_same (held_run (s := { s₁ with objs := s₁.objs ++ [o₁] }) hK hb hh) h₂ hq₂

/-- **C142 (change).** A change to the engine record of a `FuelFlow` changes the rated thrust that
its `at_thrust` divides by, and nothing else: the scale of the fuel model, the thrust model and the
drag model inside keep their numbers. A change to the engine record of an `Emission` changes the
fuel flows and indices of all its methods, and not its number of engines. -/
theorem C142_change (db : DB) (s : Store) (r : EngineRow × Str)
    (g : EngineRow × Str → EngineRow × Str) :
    (∀ f p t x y, Cache.read s.eng f.eng = some r → view s (.fuel f) = some (.fuel p t x y) →
      view (step db s (.setEngine f.eng g)) (.fuel f) =
        some (.fuel { p with maxThrust := Construct.cell (g r).1.maxThrust } t x y)) ∧
    (∀ a n e, Cache.read s.eng e = some r →
      view (step db s (.setEngine e g)) (.emission a n e) = some (.emission
        ⟨real n, Construct.quad (g r).1.ff, Construct.quad (g r).1.nox, Construct.quad (g r).1.ei_co,
          Construct.quad (g r).1.hc⟩)) := by
  have hw : ∀ e, Cache.read s.eng e = some r → Cache.read (Cache.write s.eng e g) e = some (g r) := by
    intro e he
    simp only [Cache.read, Cache.write] at he ⊢
    simp [he]
  refine ⟨?_, ?_⟩
  · intro f p t x y hr hv
    simp only [view, viewFuel, viewDrag, step, hw _ hr, hr] at hv ⊢
    cases e1 : s.ac[f.ac]? with
    | none => simp [e1] at hv
    | some a =>
      cases e2 : s.ac[f.drag.ac]? with
      | none => simp [e1, e2] at hv
      | some a' =>
        cases e3 : s.pol[f.drag.pol]? with
        | none => simp [e1, e2, e3] at hv
        | some p' =>
          simp only [e1, e2, e3, Option.some.injEq, View.fuel.injEq] at hv ⊢
          obtain ⟨rfl, rfl, rfl, rfl⟩ := hv
          exact ⟨rfl, rfl, rfl, rfl⟩
  · intro a n e hr
    simp only [view, step, hw _ hr, Option.map_some]

/-- **C142 (change of an aircraft or polar record).** A change to the aircraft record of a `Drag` changes
the airframe it computes with, a change to its polar record the polar. In a `FuelFlow` a change to its
own aircraft record changes the number of engines only, a change to the records of its `Drag` only what
that `Drag` computes with. An `Emission` keeps its number of engines whatever is done to its aircraft
record. -/
theorem C142_change_aircraft (db : DB) (ops : List Op) (o : Obj) :
    o ∈ (run db Store.empty ops).objs →
    match o with
    | .aircraft a => ∃ r, view (run db Store.empty ops) o = some (.aircraft r) ∧
        ∀ g, view (run db Store.empty (ops ++ [.setAircraft a g])) o = some (.aircraft (g r))
    | .drag d => ∃ r p,
        view (run db Store.empty ops) o =
          some (.drag (Construct.airframe r) (Construct.polarParams p)) ∧
        (∀ g, view (run db Store.empty (ops ++ [.setAircraft d.ac g])) o =
          some (.drag (Construct.airframe (g r)) (Construct.polarParams p))) ∧
        ∀ g, view (run db Store.empty (ops ++ [.setPolar d.pol g])) o =
          some (.drag (Construct.airframe r) (Construct.polarParams (g p)))
    | .fuel f => ∃ m t r r' p, m.number = NR.val (real r.number) ∧
        view (run db Store.empty ops) o =
          some (.fuel m t (Construct.airframe r') (Construct.polarParams p)) ∧
        (∀ g, view (run db Store.empty (ops ++ [.setAircraft f.ac g])) o =
          some (.fuel { m with number := NR.val (real (g r).number) } t (Construct.airframe r')
            (Construct.polarParams p))) ∧
        (∀ g, view (run db Store.empty (ops ++ [.setAircraft f.drag.ac g])) o =
          some (.fuel m t (Construct.airframe (g r')) (Construct.polarParams p))) ∧
        ∀ g, view (run db Store.empty (ops ++ [.setPolar f.drag.pol g])) o =
          some (.fuel m t (Construct.airframe r') (Construct.polarParams (g p)))
    | .emission a _ _ => ∀ g, view (run db Store.empty (ops ++ [.setAircraft a g])) o =
        view (run db Store.empty ops) o
    | _ => True := by
  intro ho
  have hi : Inv (run db Store.empty ops) := Inv.empty.run ops
  obtain ⟨v, hv⟩ := hi.view ho
  have e : ∀ op, run db Store.empty (ops ++ [op]) = step db (run db Store.empty ops) op := by
    intro op; simp only [run, List.foldl_append, List.foldl_cons, List.foldl_nil]
  have hn := (List.nodup_flatMap.1 hi.ac).1 o ho
  simp only [e]
  generalize run db Store.empty ops = s at hv
  cases o with
  | aircraft a =>
    simp only [view, Option.map_eq_some_iff] at hv
    obtain ⟨r, h1, rfl⟩ := hv
    exact ⟨r, by simp [view, h1], fun g => by simp [view, step, h1]⟩
  | engine a => trivial
  | thrust t => trivial
  | drag d =>
    simp only [view, viewDrag] at hv
    cases h1 : s.ac[d.ac]? with
    | none => simp [h1] at hv
    | some r =>
      cases h2 : s.pol[d.pol]? with
      | none => simp [h1, h2] at hv
      | some p =>
        exact ⟨r, p, by simp [view, viewDrag, h1, h2], fun g => by simp [view, viewDrag, step, h1, h2],
          fun g => by simp [view, viewDrag, step, h1, h2]⟩
  | fuel f =>
    have hne : f.ac ≠ f.drag.ac := by
      simpa [Obj.aircrafts] using hn
    simp only [view, viewFuel, viewDrag] at hv
    cases h1 : s.ac[f.ac]? with
    | none => simp [h1] at hv
    | some r =>
      cases h2 : s.ac[f.drag.ac]? with
      | none => simp [h1, h2] at hv
      | some r' =>
        cases h3 : s.pol[f.drag.pol]? with
        | none => simp [h1, h2, h3] at hv
        | some p =>
          cases h4 : Cache.read s.eng f.eng with
          | none => simp [h1, h2, h3, h4] at hv
          | some en =>
            refine ⟨_, Construct.thrustParams f.thrust.1 f.thrust.2, r, r', p, ?_,
              by simp only [view, viewFuel, viewDrag, h1, h2, h3, h4]; rfl, fun g => ?_, fun g => ?_,
              fun g => ?_⟩
            · rfl
            · simp [view, viewFuel, viewDrag, step, h1, h2, h3, h4, hne]
            · simp [view, viewFuel, viewDrag, step, h1, h2, h3, h4, hne.symm]
            · simp [view, viewFuel, viewDrag, step, h1, h2, h3, h4]
  | emission a n en =>
    intro g
    simp [view, step]

/-- Setting the number of engines in the aircraft record of a `FuelFlow("A320")`: no program of the
library does so, but nothing prevents it. -/
example : ∃ f, Obj.fuel f ∈ (run Data.shipped Store.empty [.new (.fuel [65, 51, 50, 48] none none false)]).objs ∧
    ∃ r, (run Data.shipped Store.empty [.new (.fuel [65, 51, 50, 48] none none false),
      .setAircraft f.ac fun r => { r with number := 0 }]).ac[f.ac]? = some r ∧ r.number = 0 := by
  have h : ((run Data.shipped Store.empty [.new (.fuel [65, 51, 50, 48] none none false)]).objs.map
      fun o => match o with
        | .fuel f => some f.ac
        | _ => none) = [some 0] := by decide +kernel
  have h2 : ((run Data.shipped Store.empty [.new (.fuel [65, 51, 50, 48] none none false),
      .setAircraft 0 fun r => { r with number := 0 }]).ac[0]?.map (·.number)) = some 0 := by
    decide +kernel
  generalize (run Data.shipped Store.empty [.new (.fuel [65, 51, 50, 48] none none false)]).objs = l at h
  rcases l with _ | ⟨o, l⟩
  · simp at h
  · cases o <;> simp at h
    obtain ⟨h, rfl⟩ := h
    rename_i f
    refine ⟨f, by simp, ?_⟩
    rw [h]
    simpa using h2

/-- **C142 (later `Thrust`).** A `Thrust` created while a record is cached under the upper-case engine
name copies what is in that record now. -/
theorem C142_thrust_later (db : DB) (before between : List Op) (r₁ : Req) (o₁ o₂ : Obj)
    (s₁ s₂ : Store) (ac eng : Str) (syn : Option Bool) (force : Bool)
    (h₁ : create db r₁ (run db Store.empty before) = (.ok o₁, s₁))
    (h₂ : create db (.thrust ac (some eng) syn force)
      (run db Store.empty (before ++ Op.new r₁ :: between)) = (.ok o₂, s₂))
    (hq : upper eng ∈ key db r₁) (K : Finset Str) (hK : K.card < 128)
    (ha : ∀ k ∈ asks db r₁, k = upper eng ∨ k ∈ K)
    (hb : ∀ r, Op.new r ∈ between → ∀ k ∈ asks db r, k = upper eng ∨ k ∈ K) :
    ∃ a e row, o₁.engine? = some a ∧
      Cache.read (run db Store.empty (before ++ Op.new r₁ :: between)).eng a = some e ∧
      o₂ = .thrust (row, e.1) := by
  obtain ⟨t, s3, h3, h4⟩ := andThen_ok h₂
  simp only [ret, Prod.mk.injEq, Except.ok.injEq] at h4
  obtain ⟨rfl, rfl⟩ := h4
  obtain ⟨b, s4, h5, h6⟩ := andThen_ok h3
  obtain ⟨e, s5, h7, h8⟩ := andThen_ok h6
  have hs4 := (aircraft_ok h5).2.2.2.2
  have he := engine_ok h7
  rw [Option.getD_some] at he
  rw [hs4] at he
  have hnew : create db (.engine (upper eng))
      (run db Store.empty (before ++ Op.new r₁ :: between)) =
      (.ok (.engine e.1), { run db Store.empty (before ++ Op.new r₁ :: between) with
        eng := s5.eng }) := by
    simp only [create, andThen, Objects.engine]
    generalize Cache.call (Registry.engine db)
      (run db Store.empty (before ++ Op.new r₁ :: between)).eng (upper eng) = c at he
    obtain ⟨c1, c2⟩ := c
    obtain ⟨k1, k2, k3⟩ := he
    simp only at k1 k2
    subst k1 k2
    simp only [k3, ret]
  obtain ⟨a, e1, e2⟩ := C142_shared db before between r₁ (.engine (upper eng)) o₁ (.engine e.1) s₁ _
    (upper eng) h₁ hnew hq (by simp [key]) K hK ha hb
  simp only [Obj.engine?, Option.some.injEq] at e2
  subst e2
  refine ⟨e.1, e.2, b.2, e1, ?_, ?_⟩
  · have hi : Inv (run db Store.empty (before ++ Op.new r₁ :: between)) := Inv.empty.run _
    have hcall := Cache.call_ok (Registry.engine db) hi.ok (upper eng)
    have hi1 : Inv (step db (run db Store.empty before) (.new r₁)) :=
      (Inv.empty.run before).step (.new r₁)
    have ho : o₁ ∈ (run db Store.empty (before ++ Op.new r₁ :: between)).objs := by
      have : run db Store.empty (before ++ Op.new r₁ :: between) =
          run db (step db (run db Store.empty before) (.new r₁)) between := by
        simp only [run, List.foldl_append, List.foldl_cons]
      rw [this]
      refine mem_run hi1 ?_ between
      simp [step, h₁]
    obtain ⟨x, hx⟩ := hi.engLt o₁ ho e.1 e1
    have := hcall.2.2.1 e.1 (List.getElem?_eq_some_iff.1 hx).1
    rw [he.2.1, he.2.2, hx] at this
    rw [hx, ← this]
  · split_ifs at h8
    · simp [lift] at h8
    · simp only [ret, Prod.mk.injEq, Except.ok.injEq] at h8
      rw [← h8.1]

/-- The characters of a Lean string. -/
private def str (s : String) : Str := s.toList.map Char.toNat

/-- `FuelFlow("A320")`, its engine's rated thrust set to 0, then a second `FuelFlow("A320")`, an
`Emission("A320")` and a `Thrust("A320")`: one engine record for all, and the new `Thrust` copies the
0, while the first one, inside the first `FuelFlow`, keeps its value. -/
example :
    ((run Data.shipped Store.empty [.new (.fuel (str "A320") none none false),
        .setEngine 0 (fun x => ({ x.1 with maxThrust := some 0 }, x.2)),
        .new (.fuel (str "A320") none none false), .new (.emission (str "A320") none none),
        .new (.thrust (str "A320") none none false)]).objs.map fun o =>
      (o.engine?, o.aircrafts, match o with
        | .thrust t => some (t.2.maxThrust == some 0)
        | .fuel f => some (f.thrust.2.maxThrust == some 0)
        | _ => none)) =
    [(some 0, [0, 2], some false), (some 0, [3, 5], some true), (some 0, [6], none),
      (none, [], some true)] := by
  decide +kernel

/-- For an engine name in mixed case the `Thrust` has a record of its own: it is asked for in
upper case (`thrust.py:48`). -/
example :
    ((run Data.shipped Store.empty [.new (.fuel (str "A333") (some (str "Trent 772")) none false),
        .setEngine 0 (fun x => ({ x.1 with maxThrust := some 0 }, x.2)),
        .new (.fuel (str "A333") (some (str "Trent 772")) none false)]).objs.map fun o =>
      (o.engine?, match o with
        | .fuel f => some (f.thrust.2.maxThrust == some 0)
        | _ => none)) =
    [(some 0, some false), (some 0, some false)] := by
  decide +kernel

end Verif.Props
