import Verif.Spec.Objects
import Verif.Lemmas.Cache

/-!
# Lemmas about the object store
-/

namespace Verif.Objects
open Verif.Tables Verif.Registry

variable {db : DB} {β γ δ : Type}

/-- Nothing that was there has changed, and nothing has been handed to the program. -/
structure Grows (s s' : Store) : Prop where
  eng : ∀ a r, Cache.read s.eng a = some r → Cache.read s'.eng a = some r
  ac : ∀ (i : ℕ) x, s.ac[i]? = some x → s'.ac[i]? = some x
  pol : ∀ (i : ℕ) x, s.pol[i]? = some x → s'.pol[i]? = some x
  objs : s'.objs = s.objs
  acLen : s.ac.length ≤ s'.ac.length
  polLen : s.pol.length ≤ s'.pol.length

theorem Grows.refl (s : Store) : Grows s s :=
  ⟨fun _ _ h => h, fun _ _ h => h, fun _ _ h => h, rfl, le_rfl, le_rfl⟩

theorem Grows.trans {s t u : Store} (h : Grows s t) (k : Grows t u) : Grows s u :=
  ⟨fun _ _ x => k.eng _ _ (h.eng _ _ x), fun _ _ x => k.ac _ _ (h.ac _ _ x),
    fun _ _ x => k.pol _ _ (h.pol _ _ x), k.objs.trans h.objs, h.acLen.trans k.acLen,
    h.polLen.trans k.polLen⟩

/-- A call that keeps the cache sound and changes nothing that was there. -/
def Mono (m : M β) : Prop := ∀ s, Cache.Ok s.eng → Cache.Ok (m s).2.eng ∧ Grows s (m s).2

theorem mono_ret (x : β) : Mono (ret x) := fun s hs => ⟨hs, Grows.refl s⟩

theorem mono_lift (x : Except PyError β) : Mono (lift x) := fun s hs => ⟨hs, Grows.refl s⟩

theorem mono_andThen {m : M β} {k : β → M γ} (hm : Mono m) (hk : ∀ x, Mono (k x)) :
    Mono (andThen m k) := by
  intro s hs
  have h := hm s hs
  unfold andThen
  rcases e : m s with ⟨r, s'⟩
  rw [e] at h
  cases r with
  | error x => exact h
  | ok x => exact ⟨(hk x s' h.1).1, h.2.trans (hk x s' h.1).2⟩

theorem andThen_ok {m : M β} {k : β → M γ} {s s' : Store} {y : γ}
    (h : andThen m k s = (.ok y, s')) : ∃ x t, m s = (.ok x, t) ∧ k x t = (.ok y, s') := by
  unfold andThen at h
  rcases e : m s with ⟨r, t⟩
  rw [e] at h
  cases r with
  | error x => simp at h
  | ok x => exact ⟨x, t, rfl, h⟩

theorem mono_aircraft (ac : Str) (syn : Bool) : Mono (aircraft db ac syn) := by
  intro s hs
  unfold aircraft
  cases Registry.aircraft db ac syn with
  | error e => exact ⟨hs, Grows.refl s⟩
  | ok a =>
    refine ⟨hs, fun _ _ h => h, ?_, fun _ _ h => h, rfl, by simp, le_rfl⟩
    intro i x h
    have := (List.getElem?_eq_some_iff.1 h).1
    rw [List.getElem?_append_left this]
    exact h

theorem engine_state (q : Str) (s : Store) :
    (engine db q s).2 = { s with eng := (Cache.call (Registry.engine db) s.eng q).2 } := by
  unfold engine
  rcases Cache.call (Registry.engine db) s.eng q with ⟨r, c⟩
  cases r with
  | error e => rfl
  | ok a =>
    dsimp only
    cases Cache.read c a <;> rfl

theorem mono_engine (q : Str) : Mono (engine db q) := by
  intro s hs
  rw [engine_state]
  have h := Cache.call_ok (Registry.engine db) hs q
  refine ⟨h.1, ?_, fun _ _ h => h, fun _ _ h => h, rfl, le_rfl, le_rfl⟩
  intro a r hr
  have ha : a < s.eng.heap.length := (List.getElem?_eq_some_iff.1 hr).1
  exact (h.2.2.1 a ha).trans hr

theorem mono_polar (ac : Str) (syn : Option Bool) : Mono (polar db ac syn) := by
  intro s hs
  unfold polar
  cases Construct.polar db ac syn with
  | error e => exact ⟨hs, Grows.refl s⟩
  | ok a =>
    refine ⟨hs, fun _ _ h => h, fun _ _ h => h, ?_, rfl, le_rfl, by simp⟩
    intro i x h
    have := (List.getElem?_eq_some_iff.1 h).1
    rw [List.getElem?_append_left this]
    exact h

theorem mono_thrust (ac : Str) (eng : Option Str) (syn : Option Bool) (force : Bool) :
    Mono (thrust db ac eng syn force) := by
  refine mono_andThen (mono_aircraft _ _) fun a => mono_andThen (mono_engine _) fun e => ?_
  split_ifs
  · exact mono_lift _
  · exact mono_ret _

theorem mono_drag (ac : Str) (syn : Option Bool) : Mono (drag db ac syn) :=
  mono_andThen (mono_aircraft _ _) fun _ => mono_andThen (mono_polar _ _) fun _ => mono_ret _

theorem mono_fuelModel (ac t : Str) (e : EngineRow) : Mono (fuelModel db ac t e) := by
  unfold fuelModel
  cases Construct.fuelRow db ac with
  | some r =>
    dsimp only
    split_ifs
    · exact mono_ret _
    · exact mono_andThen (mono_engine _) fun _ => mono_ret _
    · exact mono_ret _
  | none =>
    dsimp only
    cases Construct.fuelRow db Construct.defaultStr with
    | some r => exact mono_ret _
    | none => exact mono_lift _

theorem mono_fuel (ac : Str) (eng : Option Str) (syn : Option Bool) (force : Bool) :
    Mono (fuel db ac eng syn force) :=
  mono_andThen (mono_aircraft _ _) fun _ => mono_andThen (mono_engine _) fun _ =>
    mono_andThen (mono_thrust _ _ _ _) fun _ => mono_andThen (mono_drag _ _) fun _ =>
      mono_andThen (mono_lift _) fun _ => mono_andThen (mono_fuelModel _ _ _) fun _ => mono_ret _

theorem mono_emission (ac : Str) (eng : Option Str) (syn : Option Bool) :
    Mono (emission db ac eng syn) :=
  mono_andThen (mono_aircraft _ _) fun _ => mono_andThen (mono_engine _) fun _ => mono_ret _

theorem mono_create (r : Req) : Mono (create db r) := by
  cases r with
  | aircraft ac syn => exact mono_andThen (mono_aircraft _ _) fun _ => mono_ret _
  | engine q => exact mono_andThen (mono_engine _) fun _ => mono_ret _
  | thrust ac eng syn force => exact mono_andThen (mono_thrust _ _ _ _) fun _ => mono_ret _
  | drag ac syn => exact mono_andThen (mono_drag _ _) fun _ => mono_ret _
  | fuel ac eng syn force => exact mono_andThen (mono_fuel _ _ _ _) fun _ => mono_ret _
  | emission ac eng syn => exact mono_andThen (mono_emission _ _ _) fun _ => mono_ret _

/-! ### Addresses of new records -/

theorem aircraft_ok {ac : Str} {syn : Bool} {s s' : Store} {x : ℕ × AircraftRow}
    (h : aircraft db ac syn s = (.ok x, s')) :
    x.1 = s.ac.length ∧ Registry.aircraft db ac syn = .ok x.2 ∧ s'.ac = s.ac ++ [x.2] ∧
      s'.pol = s.pol ∧ s'.eng = s.eng := by
  unfold aircraft at h
  cases e : Registry.aircraft db ac syn with
  | error y => rw [e] at h; simp at h
  | ok a =>
    rw [e] at h
    simp only [Prod.mk.injEq, Except.ok.injEq] at h
    obtain ⟨rfl, rfl⟩ := h
    exact ⟨rfl, rfl, rfl, rfl, rfl⟩

theorem polar_ok {ac : Str} {syn : Option Bool} {s s' : Store} {x : ℕ}
    (h : polar db ac syn s = (.ok x, s')) :
    x = s.pol.length ∧ s'.pol.length = s.pol.length + 1 ∧ s'.ac = s.ac ∧ s'.eng = s.eng := by
  unfold polar at h
  cases e : Construct.polar db ac syn with
  | error y => rw [e] at h; simp at h
  | ok a =>
    rw [e] at h
    simp only [Prod.mk.injEq, Except.ok.injEq] at h
    obtain ⟨rfl, rfl⟩ := h
    exact ⟨rfl, by simp, rfl, rfl⟩

theorem drag_ok {ac : Str} {syn : Option Bool} {s s' : Store} {x : DragObj}
    (h : drag db ac syn s = (.ok x, s')) :
    x.ac = s.ac.length ∧ x.pol = s.pol.length ∧ s'.ac.length = s.ac.length + 1 ∧
      s'.pol.length = s.pol.length + 1 ∧ s'.eng = s.eng := by
  obtain ⟨a, t, h1, h2⟩ := andThen_ok h
  obtain ⟨p, u, h3, h4⟩ := andThen_ok h2
  obtain ⟨e1, -, e3, e4, e5⟩ := aircraft_ok h1
  obtain ⟨f1, f2, f3, f4⟩ := polar_ok h3
  simp only [ret, Prod.mk.injEq, Except.ok.injEq] at h4
  obtain ⟨rfl, rfl⟩ := h4
  refine ⟨e1, by rw [f1, e4], ?_, by rw [f2, e4], by rw [f4, e5]⟩
  rw [f3, e3]; simp

theorem engine_ok {q : Str} {s s' : Store} {x : ℕ × (EngineRow × Str)}
    (h : engine db q s = (.ok x, s')) :
    (Cache.call (Registry.engine db) s.eng q).1 = .ok x.1 ∧
      (Cache.call (Registry.engine db) s.eng q).2 = s'.eng ∧ Cache.read s'.eng x.1 = some x.2 := by
  unfold engine at h
  rcases e : Cache.call (Registry.engine db) s.eng q with ⟨r, c⟩
  rw [e] at h
  cases r with
  | error y => simp at h
  | ok a =>
    simp only at h
    cases e2 : Cache.read c a with
    | none => rw [e2] at h; simp at h
    | some y =>
      rw [e2] at h
      simp only [Prod.mk.injEq, Except.ok.injEq] at h
      obtain ⟨rfl, rfl⟩ := h
      exact ⟨rfl, rfl, e2⟩

theorem create_engine {r : Req} {s s' : Store} {o : Obj} (hs : Cache.Ok s.eng)
    (h : create db r s = (.ok o, s')) {a : ℕ} (ha : o.engine? = some a) :
    ∃ x, Cache.read s'.eng a = some x := by
  cases r with
  | engine q =>
    obtain ⟨x, t, h1, h2⟩ := andThen_ok h
    simp only [ret, Prod.mk.injEq, Except.ok.injEq] at h2
    obtain ⟨rfl, rfl⟩ := h2
    simp only [Obj.engine?, Option.some.injEq] at ha
    subst ha
    exact ⟨_, (engine_ok h1).2.2⟩
  | fuel ac eng syn force =>
    obtain ⟨f, t, h1, h2⟩ := andThen_ok h
    simp only [ret, Prod.mk.injEq, Except.ok.injEq] at h2
    obtain ⟨rfl, rfl⟩ := h2
    obtain ⟨b, s1, k1, h2⟩ := andThen_ok h1
    obtain ⟨e, s2, h3, h4⟩ := andThen_ok h2
    have o1 : Cache.Ok s1.eng := by rw [(aircraft_ok k1).2.2.2.2]; exact hs
    have g2 := mono_engine (db := db) (eng.getD b.2.default) s1 o1
    rw [h3] at g2
    have g3 := (mono_andThen (mono_thrust (db := db) ac (some (eng.getD b.2.default)) syn force)
      fun t => mono_andThen (mono_drag (db := db) ac syn) fun d =>
        mono_andThen (mono_lift (Construct.wrap db ac syn)) fun _ => mono_andThen
          (mono_fuelModel (db := db) (lower ac) (upper (eng.getD b.2.default)) e.2.1) fun m =>
            mono_ret (⟨b.1, e.1, t, d, m⟩ : FuelObj)) s2 g2.1
    rw [h4] at g3
    obtain ⟨th, s3, h5, h6⟩ := andThen_ok h4
    obtain ⟨d, s4, h7, h8⟩ := andThen_ok h6
    obtain ⟨w, s5, h9, h10⟩ := andThen_ok h8
    obtain ⟨m, s6, h11, h12⟩ := andThen_ok h10
    simp only [ret, Prod.mk.injEq, Except.ok.injEq] at h12
    obtain ⟨rfl, rfl⟩ := h12
    simp only [Obj.engine?, Option.some.injEq] at ha
    subst ha
    exact ⟨_, g3.2.eng _ _ (engine_ok h3).2.2⟩
  | emission ac eng syn =>
    obtain ⟨f, t, h1, h2⟩ := andThen_ok h
    simp only [ret, Prod.mk.injEq, Except.ok.injEq] at h2
    obtain ⟨rfl, rfl⟩ := h2
    obtain ⟨b, s1, k1, h2⟩ := andThen_ok h1
    obtain ⟨e, s2, h3, h4⟩ := andThen_ok h2
    simp only [ret, Prod.mk.injEq, Except.ok.injEq] at h4
    obtain ⟨rfl, rfl⟩ := h4
    simp only [Obj.engine?, Option.some.injEq] at ha
    subst ha
    exact ⟨_, (engine_ok h3).2.2⟩
  | aircraft ac syn =>
    obtain ⟨x, t, h1, h2⟩ := andThen_ok h
    simp only [ret, Prod.mk.injEq, Except.ok.injEq] at h2
    obtain ⟨rfl, rfl⟩ := h2
    simp [Obj.engine?] at ha
  | thrust ac eng syn force =>
    obtain ⟨x, t, h1, h2⟩ := andThen_ok h
    simp only [ret, Prod.mk.injEq, Except.ok.injEq] at h2
    obtain ⟨rfl, rfl⟩ := h2
    simp [Obj.engine?] at ha
  | drag ac syn =>
    obtain ⟨x, t, h1, h2⟩ := andThen_ok h
    simp only [ret, Prod.mk.injEq, Except.ok.injEq] at h2
    obtain ⟨rfl, rfl⟩ := h2
    simp [Obj.engine?] at ha

/-- The records of a new object are new, apart from its engine record. -/
theorem create_new {r : Req} {s s' : Store} {o : Obj} (hs : Cache.Ok s.eng)
    (h : create db r s = (.ok o, s')) :
    (∀ a ∈ o.aircrafts, s.ac.length ≤ a ∧ a < s'.ac.length) ∧ o.aircrafts.Nodup ∧
    (∀ a ∈ o.polars, s.pol.length ≤ a ∧ a < s'.pol.length) ∧ o.polars.Nodup := by
  cases r with
  | aircraft ac syn =>
    obtain ⟨a, t, h1, h2⟩ := andThen_ok h
    simp only [ret, Prod.mk.injEq, Except.ok.injEq] at h2
    obtain ⟨rfl, rfl⟩ := h2
    obtain ⟨e1, -, e3, -⟩ := aircraft_ok h1
    simp [Obj.aircrafts, Obj.polars, e1, e3]
  | engine q =>
    obtain ⟨a, t, h1, h2⟩ := andThen_ok h
    simp only [ret, Prod.mk.injEq, Except.ok.injEq] at h2
    obtain ⟨rfl, rfl⟩ := h2
    simp [Obj.aircrafts, Obj.polars]
  | thrust ac eng syn force =>
    obtain ⟨a, t, h1, h2⟩ := andThen_ok h
    simp only [ret, Prod.mk.injEq, Except.ok.injEq] at h2
    obtain ⟨rfl, rfl⟩ := h2
    simp [Obj.aircrafts, Obj.polars]
  | drag ac syn =>
    obtain ⟨a, t, h1, h2⟩ := andThen_ok h
    simp only [ret, Prod.mk.injEq, Except.ok.injEq] at h2
    obtain ⟨rfl, rfl⟩ := h2
    obtain ⟨e1, e2, e3, e4, -⟩ := drag_ok h1
    simp [Obj.aircrafts, Obj.polars, e1, e2, e3, e4]
  | fuel ac eng syn force =>
    obtain ⟨f, t, h1, h2⟩ := andThen_ok h
    simp only [ret, Prod.mk.injEq, Except.ok.injEq] at h2
    obtain ⟨rfl, rfl⟩ := h2
    obtain ⟨a, s1, k1, h2⟩ := andThen_ok h1
    obtain ⟨e, s2, h3, h4⟩ := andThen_ok h2
    obtain ⟨th, s3, h5, h6⟩ := andThen_ok h4
    obtain ⟨d, s4, h7, h8⟩ := andThen_ok h6
    obtain ⟨w, s5, h9, h10⟩ := andThen_ok h8
    obtain ⟨m, s6, h11, h12⟩ := andThen_ok h10
    simp only [ret, Prod.mk.injEq, Except.ok.injEq] at h12
    obtain ⟨rfl, rfl⟩ := h12
    obtain ⟨e1, -, e3, e4, e5⟩ := aircraft_ok k1
    have o1 : Cache.Ok s1.eng := by rw [e5]; exact hs
    have g2 := mono_engine (db := db) (eng.getD a.2.default) s1 o1
    rw [h3] at g2
    have g3 := mono_thrust (db := db) ac (some (eng.getD a.2.default)) syn force s2 g2.1
    rw [h5] at g3
    obtain ⟨d1, d2, d3, d4, d5⟩ := drag_ok h7
    have o4 : Cache.Ok s4.eng := by rw [d5]; exact g3.1
    simp only [lift, Prod.mk.injEq] at h9
    obtain ⟨-, rfl⟩ := h9
    have g6 := mono_fuelModel (db := db) (lower ac) (upper (eng.getD a.2.default)) e.2.1 s4 o4
    rw [h11] at g6
    have n2 : s1.ac.length ≤ s2.ac.length := g2.2.acLen
    have n3 : s2.ac.length ≤ s3.ac.length := g3.2.acLen
    have n6 : s4.ac.length ≤ s6.ac.length := g6.2.acLen
    have p2 : s1.pol.length ≤ s2.pol.length := g2.2.polLen
    have p3 : s2.pol.length ≤ s3.pol.length := g3.2.polLen
    have p6 : s4.pol.length ≤ s6.pol.length := g6.2.polLen
    have n1 : s1.ac.length = s.ac.length + 1 := by rw [e3]; simp
    have p1 : s1.pol.length = s.pol.length := by rw [e4]
    simp only [Obj.aircrafts, Obj.polars, List.mem_cons, List.not_mem_nil, or_false,
      List.nodup_cons, List.nodup_nil, not_false_eq_true, and_true]
    refine ⟨?_, ?_, ?_⟩
    · rintro x (rfl | rfl) <;> omega
    · omega
    · rintro x rfl; omega
  | emission ac eng syn =>
    obtain ⟨f, t, h1, h2⟩ := andThen_ok h
    simp only [ret, Prod.mk.injEq, Except.ok.injEq] at h2
    obtain ⟨rfl, rfl⟩ := h2
    obtain ⟨a, s1, k1, h2⟩ := andThen_ok h1
    obtain ⟨e, s2, h3, h4⟩ := andThen_ok h2
    simp only [ret, Prod.mk.injEq, Except.ok.injEq] at h4
    obtain ⟨rfl, rfl⟩ := h4
    obtain ⟨e1, -, e3, e4, e5⟩ := aircraft_ok k1
    have g2 := mono_engine (db := db) (eng.getD a.2.default) s1 (by rw [e5]; exact hs)
    rw [h3] at g2
    have n2 : s1.ac.length ≤ s2.ac.length := g2.2.acLen
    have n1 : s1.ac.length = s.ac.length + 1 := by rw [e3]; simp
    simp only [Obj.aircrafts, Obj.polars, List.mem_cons, List.not_mem_nil, or_false,
      List.nodup_cons, List.nodup_nil, not_false_eq_true, and_true]
    refine ⟨?_, ?_⟩
    · rintro x rfl; omega
    · simp

/-! ### Invariant of every program -/

/-- The cache is sound; aircraft and polar records belong to one object each. -/
structure Inv (s : Store) : Prop where
  ok : Cache.Ok s.eng
  ac : (s.objs.flatMap Obj.aircrafts).Nodup
  acLt : ∀ a ∈ s.objs.flatMap Obj.aircrafts, a < s.ac.length
  pol : (s.objs.flatMap Obj.polars).Nodup
  polLt : ∀ a ∈ s.objs.flatMap Obj.polars, a < s.pol.length
  engLt : ∀ o ∈ s.objs, ∀ a, o.engine? = some a → ∃ x, Cache.read s.eng a = some x

theorem Inv.empty : Inv Store.empty := by
  constructor <;> simp [Store.empty, Cache.Ok]

theorem Inv.step {s : Store} (h : Inv s) (op : Op) : Inv (step db s op) := by
  cases op with
  | setEngine a g =>
    refine ⟨(Cache.write_ok h.ok a g).1, h.ac, h.acLt, h.pol, h.polLt, fun o ho b hb => ?_⟩
    obtain ⟨x, hx⟩ := h.engLt o ho b hb
    have hb : b < s.eng.heap.length := (List.getElem?_eq_some_iff.1 hx).1
    have hb' : b < (Cache.write s.eng a g).heap.length := by rw [(Cache.write_ok h.ok a g).2]; exact hb
    exact ⟨_, List.getElem?_eq_getElem hb'⟩
  | setAircraft a g =>
    exact ⟨h.ok, h.ac, fun x hx => by simpa [Objects.step] using h.acLt x hx, h.pol, h.polLt, h.engLt⟩
  | setPolar a g =>
    exact ⟨h.ok, h.ac, h.acLt, h.pol, fun x hx => by simpa [Objects.step] using h.polLt x hx, h.engLt⟩
  | new r =>
    have hm := mono_create (db := db) r s h.ok
    rcases e : create db r s with ⟨res, s'⟩
    rw [e] at hm
    have lt1 : ∀ a ∈ s'.objs.flatMap Obj.aircrafts, a < s.ac.length := by
      rw [hm.2.objs]; exact h.acLt
    have lt2 : ∀ a ∈ s'.objs.flatMap Obj.polars, a < s.pol.length := by
      rw [hm.2.objs]; exact h.polLt
    have lt3 : ∀ o ∈ s'.objs, ∀ a, o.engine? = some a → ∃ x, Cache.read s'.eng a = some x := by
      rw [hm.2.objs]
      intro o ho a ha
      obtain ⟨x, hx⟩ := h.engLt o ho a ha
      exact ⟨x, hm.2.eng _ _ hx⟩
    cases res with
    | error x =>
      simp only [Objects.step, e]
      exact ⟨hm.1, by rw [hm.2.objs]; exact h.ac, fun a ha => (lt1 a ha).trans_le hm.2.acLen,
        by rw [hm.2.objs]; exact h.pol, fun a ha => (lt2 a ha).trans_le hm.2.polLen, lt3⟩
    | ok o =>
      obtain ⟨c1, c2, c3, c4⟩ := create_new h.ok e
      simp only [Objects.step, e]
      refine ⟨hm.1, ?_, ?_, ?_, ?_, ?_⟩
      · simp only [List.flatMap_append, List.flatMap_cons, List.flatMap_nil, List.append_nil]
        refine List.Nodup.append (by rw [hm.2.objs]; exact h.ac) c2 ?_
        intro a h1 h2
        exact absurd (lt1 a h1) (not_lt.2 (c1 a h2).1)
      · simp only [List.flatMap_append, List.flatMap_cons, List.flatMap_nil, List.append_nil]
        intro a ha
        rcases List.mem_append.1 ha with ha | ha
        · exact (lt1 a ha).trans_le hm.2.acLen
        · exact (c1 a ha).2
      · simp only [List.flatMap_append, List.flatMap_cons, List.flatMap_nil, List.append_nil]
        refine List.Nodup.append (by rw [hm.2.objs]; exact h.pol) c4 ?_
        intro a h1 h2
        exact absurd (lt2 a h1) (not_lt.2 (c3 a h2).1)
      · simp only [List.flatMap_append, List.flatMap_cons, List.flatMap_nil, List.append_nil]
        intro a ha
        rcases List.mem_append.1 ha with ha | ha
        · exact (lt2 a ha).trans_le hm.2.polLen
        · exact (c3 a ha).2
      · intro o' ho' a ha
        rcases List.mem_append.1 ho' with ho' | ho'
        · exact lt3 o' ho' a ha
        · rw [List.mem_singleton] at ho'
          subst ho'
          exact create_engine h.ok e ha

theorem Inv.run {s : Store} (h : Inv s) (ops : List Op) : Inv (run db s ops) := by
  induction ops generalizing s with
  | nil => exact h
  | cons op ops ih => exact ih (h.step op)

/-! ### What an object reads -/

theorem view_grows {s s' : Store} (h : Grows s s') {o : Obj} {v : View} (hv : view s o = some v) :
    view s' o = some v := by
  have hd : ∀ d x, viewDrag s d = some x → viewDrag s' d = some x := by
    intro d x hx
    unfold viewDrag at hx ⊢
    cases e1 : s.ac[d.ac]? with
    | none => simp [e1] at hx
    | some a =>
      cases e2 : s.pol[d.pol]? with
      | none => simp [e1, e2] at hx
      | some p =>
        rw [h.ac _ _ e1, h.pol _ _ e2]
        rwa [e1, e2] at hx
  cases o with
  | aircraft a =>
    obtain ⟨x, hx, rfl⟩ := Option.map_eq_some_iff.1 hv
    exact Option.map_eq_some_iff.2 ⟨x, h.ac _ _ hx, rfl⟩
  | engine a =>
    obtain ⟨x, hx, rfl⟩ := Option.map_eq_some_iff.1 hv
    exact Option.map_eq_some_iff.2 ⟨x, h.eng _ _ hx, rfl⟩
  | thrust t => exact hv
  | drag d =>
    obtain ⟨x, hx, rfl⟩ := Option.map_eq_some_iff.1 hv
    exact Option.map_eq_some_iff.2 ⟨x, hd _ _ hx, rfl⟩
  | fuel f =>
    simp only [view] at hv ⊢
    cases e1 : viewFuel s f with
    | none => simp [e1] at hv
    | some p =>
      cases e2 : viewDrag s f.drag with
      | none => simp [e1, e2] at hv
      | some x =>
        have : viewFuel s' f = some p := by
          unfold viewFuel at e1 ⊢
          cases e3 : s.ac[f.ac]? with
          | none => simp [e3] at e1
          | some a =>
            cases e4 : Cache.read s.eng f.eng with
            | none => simp [e3, e4] at e1
            | some r =>
              rw [h.ac _ _ e3, h.eng _ _ e4]
              rwa [e3, e4] at e1
        rw [this, hd _ _ e2]
        rwa [e1, e2] at hv
  | emission a n e =>
    obtain ⟨x, hx, rfl⟩ := Option.map_eq_some_iff.1 hv
    exact Option.map_eq_some_iff.2 ⟨x, h.eng _ _ hx, rfl⟩

/-- What is on the program's list does not matter to what an object reads. -/
theorem view_objs (s : Store) (l : List Obj) (o : Obj) : view { s with objs := l } o = view s o := by
  cases o <;> rfl

theorem view_step {s : Store} (hs : Cache.Ok s.eng) {o : Obj} {v : View} (hv : view s o = some v)
    {op : Op} (hop : op.Spares o) : view (step db s op) o = some v := by
  cases op with
  | new r =>
    have hm := mono_create (db := db) r s hs
    rcases e : create db r s with ⟨res, s'⟩
    rw [e] at hm
    have := view_grows hm.2 hv
    cases res with
    | error x => simpa only [step, e] using this
    | ok x =>
      simp only [step, e]
      exact this
  | setEngine a g =>
    rw [← hv]
    have hr : ∀ b, o.engine? = some b →
        Cache.read (Cache.write s.eng a g) b = Cache.read s.eng b := by
      intro b hb
      have : a ≠ b := by
        rintro rfl
        exact hop hb
      simp [Cache.read, Cache.write, this]
    cases o with
    | engine b => simp only [view, step, hr b rfl]
    | fuel f =>
      have := hr f.eng rfl
      simp only [view, step, viewFuel, viewDrag, this]
    | emission b n e => simp only [view, step, hr e rfl]
    | _ => rfl
  | setAircraft a g =>
    rw [← hv]
    have hr : ∀ b ∈ o.aircrafts, (s.ac.modify a g)[b]? = s.ac[b]? := by
      intro b hb
      have : a ≠ b := by
        rintro rfl
        exact hop hb
      simp [this]
    cases o with
    | aircraft b => simp only [view, step, hr b (by simp [Obj.aircrafts])]
    | drag d => simp only [view, step, viewDrag, hr d.ac (by simp [Obj.aircrafts])]
    | fuel f => simp only [view, step, viewFuel, viewDrag, hr f.ac (by simp [Obj.aircrafts]),
        hr f.drag.ac (by simp [Obj.aircrafts])]
    | _ => rfl
  | setPolar a g =>
    rw [← hv]
    have hr : ∀ b ∈ o.polars, (s.pol.modify a g)[b]? = s.pol[b]? := by
      intro b hb
      have : a ≠ b := by
        rintro rfl
        exact hop hb
      simp [this]
    cases o with
    | drag d => simp only [view, step, viewDrag, hr d.pol (by simp [Obj.polars])]
    | fuel f => simp only [view, step, viewFuel, viewDrag, hr f.drag.pol (by simp [Obj.polars])]
    | _ => rfl

theorem view_run {s : Store} (hs : Inv s) {o : Obj} {v : View} (hv : view s o = some v)
    {ops : List Op} (hop : ∀ op ∈ ops, op.Spares o) : view (run db s ops) o = some v := by
  induction ops generalizing s with
  | nil => exact hv
  | cons op ops ih =>
    exact ih (hs.step op) (view_step hs.ok hv (hop op (by simp))) fun x hx => hop x (by simp [hx])

/-- Every object the program holds can be used. -/
theorem Inv.view {s : Store} (h : Inv s) {o : Obj} (ho : o ∈ s.objs) : ∃ v, view s o = some v := by
  have ha : ∀ a ∈ o.aircrafts, ∃ x, s.ac[a]? = some x := fun a ha =>
    ⟨_, List.getElem?_eq_getElem (h.acLt a (List.mem_flatMap.2 ⟨o, ho, ha⟩))⟩
  have hp : ∀ a ∈ o.polars, ∃ x, s.pol[a]? = some x := fun a ha =>
    ⟨_, List.getElem?_eq_getElem (h.polLt a (List.mem_flatMap.2 ⟨o, ho, ha⟩))⟩
  have he := h.engLt o ho
  cases o with
  | aircraft a =>
    obtain ⟨x, hx⟩ := ha a (by simp [Obj.aircrafts])
    exact ⟨_, by simp [Objects.view, hx]; rfl⟩
  | engine a =>
    obtain ⟨x, hx⟩ := he a rfl
    exact ⟨_, by simp [Objects.view, hx]; rfl⟩
  | thrust t => exact ⟨_, rfl⟩
  | drag d =>
    obtain ⟨x, hx⟩ := ha d.ac (by simp [Obj.aircrafts])
    obtain ⟨y, hy⟩ := hp d.pol (by simp [Obj.polars])
    exact ⟨_, by simp [Objects.view, viewDrag, hx, hy]; rfl⟩
  | fuel f =>
    obtain ⟨x, hx⟩ := ha f.drag.ac (by simp [Obj.aircrafts])
    obtain ⟨z, hz⟩ := ha f.ac (by simp [Obj.aircrafts])
    obtain ⟨y, hy⟩ := hp f.drag.pol (by simp [Obj.polars])
    obtain ⟨w, hw⟩ := he f.eng rfl
    exact ⟨_, by simp [Objects.view, viewDrag, viewFuel, hx, hy, hz, hw]; rfl⟩
  | emission a n e =>
    obtain ⟨w, hw⟩ := he e rfl
    exact ⟨_, by simp [Objects.view, hw]; rfl⟩

theorem mem_run {s : Store} (hs : Inv s) {o : Obj} (ho : o ∈ s.objs) (ops : List Op) :
    o ∈ (run db s ops).objs := by
  induction ops generalizing s with
  | nil => exact ho
  | cons op ops ih =>
    refine ih (hs.step op) ?_
    cases op with
    | new r =>
      have hm := (mono_create (db := db) r s hs.ok).2.objs
      simp only [step]
      revert hm
      rcases create db r s with ⟨x, s'⟩
      intro hm
      have : o ∈ s'.objs := hm ▸ ho
      cases x with
      | error e => exact this
      | ok y => exact List.mem_append_left _ this
    | _ => exact ho

/-! ### Programs that change no record -/

/-- Every cached record is as in the table. -/
structure Clean (db : DB) (s : Store) : Prop where
  ok : Cache.Ok s.eng
  data : ∀ e ∈ s.eng.cache, ∃ r, Cache.read s.eng e.2 = some r ∧ Registry.engine db e.1 = .ok r

/-- A call does what the stateless constructor says. -/
def Does (db : DB) (m : M β) (x : Except PyError γ) (P : Store → β → γ → Prop) : Prop :=
  ∀ s, Clean db s →
    match m s, x with
    | (.error a, s'), .error b => a = b ∧ Clean db s'
    | (.ok u, s'), .ok v => P s' u v ∧ Clean db s'
    | _, _ => False

theorem does_ret {P : Store → β → γ → Prop} (u : β) (v : γ) (h : ∀ s, P s u v) :
    Does db (ret u) (.ok v) P := fun s hs => ⟨h s, hs⟩

theorem does_lift {x : Except PyError β} : Does db (lift x) x (fun _ u v => u = v) := by
  intro s hs
  cases x with
  | error e => exact ⟨rfl, hs⟩
  | ok a => exact ⟨rfl, hs⟩

/-- Sequencing; what is known of the first result stays true. -/
theorem does_andThen {β' γ' : Type} {m : M β} {k : β → M γ} {x : Except PyError β'}
    {l : β' → Except PyError γ'} {P : Store → β → β' → Prop} {Q : Store → γ → γ' → Prop}
    (hm : Does db m x P) (hmono : ∀ u, Mono (k u))
    (hP : ∀ s s' u v, P s u v → Grows s s' → P s' u v)
    (hk : ∀ u v, (∃ s, P s u v) → Does db (k u) (l v) fun s y z => P s u v → Q s y z) :
    Does db (andThen m k) (x >>= l) Q := by
  intro s hs
  have h := hm s hs
  unfold andThen
  rcases e : m s with ⟨r, s'⟩
  rw [e] at h
  cases r with
  | error a =>
    cases x with
    | error b => exact h
    | ok v => exact h.elim
  | ok u =>
    cases x with
    | error b => exact h.elim
    | ok v =>
      obtain ⟨hp, hc⟩ := h
      have h2 := hk u v ⟨s', hp⟩ s' hc
      have hg := (hmono u s' hc.ok).2
      show match k u s', l v with
        | (.error a, s'), .error b => a = b ∧ Clean db s'
        | (.ok u, s'), .ok v => Q s' u v ∧ Clean db s'
        | _, _ => False
      rcases e2 : k u s' with ⟨r2, s2⟩
      rw [e2] at h2 hg
      cases hl : l v with
      | error b =>
        rw [hl] at h2
        cases r2 with
        | error a => exact h2
        | ok y => exact h2.elim
      | ok z =>
        rw [hl] at h2
        cases r2 with
        | error a => exact h2.elim
        | ok y => exact ⟨h2.1 (hP _ _ _ _ hp hg), h2.2⟩

theorem does_aircraft (ac : Str) (syn : Bool) :
    Does db (aircraft db ac syn) (Registry.aircraft db ac syn)
      fun s u v => u.2 = v ∧ s.ac[u.1]? = some v := by
  intro s hs
  unfold aircraft
  cases Registry.aircraft db ac syn with
  | error e => exact ⟨rfl, hs⟩
  | ok a => exact ⟨⟨rfl, by simp⟩, hs.ok, hs.data⟩

theorem does_polar (ac : Str) (syn : Option Bool) :
    Does db (polar db ac syn) (Construct.polar db ac syn) fun s u v => s.pol[u]? = some v := by
  intro s hs
  unfold polar
  cases Construct.polar db ac syn with
  | error e => exact ⟨rfl, hs⟩
  | ok a => exact ⟨by simp, hs.ok, hs.data⟩

theorem does_engine (q : Str) :
    Does db (engine db q) (Registry.engine db q)
      fun s u v => u.2 = v ∧ Cache.read s.eng u.1 = some v := by
  intro s hs
  have hok := (Cache.call_ok (Registry.engine db) hs.ok q)
  have hgrow := (mono_engine (db := db) q s hs.ok).2
  have hst := engine_state (db := db) q s
  unfold engine at hst hgrow ⊢
  unfold Cache.call at hok hst hgrow ⊢
  cases hl : lookup q s.eng.cache with
  | some a =>
    obtain ⟨r, h1, h2⟩ := hs.data _ (Cache.lookup_mem hl)
    simp only [hl] at hok ⊢
    have h1' : Cache.read (⟨s.eng.heap, (q, a) :: s.eng.cache.filter (fun e => e.1 != q)⟩ :
        Cache.State (EngineRow × Str)) a = some r := h1
    simp only [h1', h2]
    refine ⟨⟨trivial, trivial⟩, hok.1, ?_⟩
    intro e he
    rcases List.mem_cons.1 he with rfl | he
    · exact ⟨r, h1', h2⟩
    · exact hs.data e (List.mem_of_mem_filter he)
  | none =>
    cases hf : Registry.engine db q with
    | error x =>
      exact ⟨rfl, hs⟩
    | ok r =>
      simp only [hl, hf] at hok ⊢
      have h1 : Cache.read (⟨s.eng.heap ++ [r], ((q, s.eng.heap.length) :: s.eng.cache).take 128⟩ :
          Cache.State (EngineRow × Str)) s.eng.heap.length = some r := by simp [Cache.read]
      simp only [h1]
      refine ⟨⟨trivial, trivial⟩, hok.1, ?_⟩
      intro e he
      rcases List.mem_cons.1 (List.mem_of_mem_take he) with rfl | he
      · exact ⟨r, h1, hf⟩
      · obtain ⟨x, hx, hx'⟩ := hs.data e he
        refine ⟨x, ?_, hx'⟩
        have := hok.2.2.1 e.2 (hs.ok e he)
        exact this.trans hx

theorem thrust_eq (ac : Str) (eng : Option Str) (syn : Option Bool) (force : Bool) :
    Construct.thrust db ac eng syn force =
      Registry.aircraft db ac (syn.getD false) >>= fun a =>
      Registry.engine db (upper (eng.getD a.default)) >>= fun e =>
      if !force && !(a.options.any fun opt => isIn (upper opt) (upper e.2)) then .error .valueError
      else .ok (a, e.1) := by
  unfold Construct.thrust
  cases Registry.aircraft db ac (syn.getD false) with
  | error e => rfl
  | ok a =>
    simp only [bind, Except.bind]
    cases Registry.engine db (upper (eng.getD a.default)) with
    | error e => rfl
    | ok e =>
      simp only
      split_ifs <;> rfl

/-- Weakening what is known of the result. -/
theorem Does.weaken {m : M β} {x : Except PyError γ} {P Q : Store → β → γ → Prop}
    (h : Does db m x P) (hPQ : ∀ s u v, P s u v → Q s u v) : Does db m x Q := by
  intro s hs
  have := h s hs
  revert this
  rcases m s with ⟨r, s'⟩
  cases r <;> cases x
  · exact id
  · exact id
  · exact id
  · exact fun h => ⟨hPQ _ _ _ h.1, h.2⟩

theorem does_thrust (ac : Str) (eng : Option Str) (syn : Option Bool) (force : Bool) :
    Does db (thrust db ac eng syn force) (Construct.thrust db ac eng syn force)
      fun _ u v => u = v := by
  rw [thrust_eq]
  have mono : ∀ (a : AircraftRow) (e : ℕ × (EngineRow × Str)),
      Mono (if !force && !(a.options.any fun opt => isIn (upper opt) (upper e.2.2)) then
        lift (.error .valueError) else ret (a, e.2.1)) := by
    intro a e
    split_ifs
    · exact mono_lift _
    · exact mono_ret _
  refine does_andThen (does_aircraft ac _) (fun u => mono_andThen (mono_engine _) (mono u.2))
    (fun s s' u v h g => ⟨h.1, g.ac _ _ h.2⟩) ?_
  rintro ⟨u, a⟩ v ⟨-, h, -⟩
  simp only at h
  subst h
  refine does_andThen (does_engine _) (mono a) (fun s s' u v h g => ⟨h.1, g.eng _ _ h.2⟩) ?_
  rintro ⟨w, e⟩ v ⟨-, h, -⟩
  simp only at h
  subst h
  simp only
  split_ifs
  · exact does_lift.weaken fun _ _ _ h _ _ => h
  · exact does_ret _ _ fun _ _ _ => rfl

theorem does_drag (ac : Str) (syn : Option Bool) :
    Does db (drag db ac syn) (Construct.drag db ac syn)
      fun s u v => s.ac[u.ac]? = some v.1 ∧ s.pol[u.pol]? = some v.2 := by
  refine does_andThen (does_aircraft _ _)
    (fun _ => mono_andThen (mono_polar _ _) fun _ => mono_ret _)
    (fun s s' u v h g => ⟨h.1, g.ac _ _ h.2⟩) ?_
  rintro ⟨u, a⟩ v -
  refine does_andThen (does_polar _ _) (fun _ => mono_ret _) (fun s s' u v h g => g.pol _ _ h) ?_
  rintro p v' -
  exact does_ret _ _ fun s h h' => ⟨h'.2, h⟩

theorem does_fuelModel (ac t : Str) (e : EngineRow) :
    Does db (fuelModel db ac t e) (Construct.fuelModel db ac t e) fun _ u v => u = v := by
  unfold fuelModel Construct.fuelModel
  cases Construct.fuelRow db ac with
  | some r =>
    simp only
    split_ifs
    · exact does_ret _ _ fun _ => rfl
    · have := does_andThen (k := fun ref : ℕ × (EngineRow × Str) =>
          ret (r, some (e.ff.toff, some ref.2.1.ff.toff)))
        (l := fun ref : EngineRow × Str =>
          (.ok (r, some (e.ff.toff, some ref.1.ff.toff)) : Except PyError _))
        (Q := fun _ u v => u = v) (does_engine (db := db) r.engineType) (fun _ => mono_ret _)
        (fun s s' u v h g => ⟨h.1, g.eng _ _ h.2⟩) (by
          rintro ⟨w, x⟩ v ⟨-, h, -⟩
          simp only at h
          subst h
          exact does_ret _ _ fun _ _ => rfl)
      revert this
      cases Registry.engine db r.engineType <;> exact id
    · exact does_ret _ _ fun _ => rfl
  | none =>
    simp only
    cases Construct.fuelRow db Construct.defaultStr with
    | some r => exact does_ret _ _ fun _ => rfl
    | none => exact does_lift

theorem does_fuel (ac : Str) (eng : Option Str) (syn : Option Bool) (force : Bool) :
    Does db (fuel db ac eng syn force) (Construct.fuel db ac eng syn force)
      fun s u v => s.ac[u.ac]? = some v.ac ∧ (∃ n, Cache.read s.eng u.eng = some (v.eng, n)) ∧
        u.thrust = v.thrust ∧ s.ac[u.drag.ac]? = some v.drag.1 ∧
        s.pol[u.drag.pol]? = some v.drag.2 ∧ u.model = v.model := by
  have m6 : ∀ u e t d, Mono (fun s => andThen (fuelModel db (lower ac)
      (upper (eng.getD (u : ℕ × AircraftRow).2.default)) (e : ℕ × (EngineRow × Str)).2.1)
      (fun m => ret (⟨u.1, e.1, t, d, m⟩ : FuelObj)) s) :=
    fun _ _ _ _ => mono_andThen (mono_fuelModel _ _ _) fun _ => mono_ret _
  refine does_andThen (does_aircraft _ _) (fun u => mono_andThen (mono_engine _) fun e =>
    mono_andThen (mono_thrust _ _ _ _) fun t => mono_andThen (mono_drag _ _) fun d =>
      mono_andThen (mono_lift _) fun _ => m6 u e t d) (fun s s' u v h g => ⟨h.1, g.ac _ _ h.2⟩) ?_
  rintro ⟨u, a⟩ v ⟨-, h, -⟩
  simp only at h
  subst h
  refine does_andThen (does_engine _) (fun e => mono_andThen (mono_thrust _ _ _ _) fun t =>
    mono_andThen (mono_drag _ _) fun d => mono_andThen (mono_lift _) fun _ => m6 (u, a) e t d)
    (fun s s' u v h g => ⟨h.1, g.eng _ _ h.2⟩) ?_
  rintro ⟨w, e⟩ v ⟨-, h, -⟩
  simp only at h
  subst h
  refine does_andThen (does_thrust _ _ _ _) (fun t => mono_andThen (mono_drag _ _) fun d =>
    mono_andThen (mono_lift _) fun _ => m6 (u, a) (w, e) t d) (fun _ _ _ _ h _ => h) ?_
  rintro t t' ⟨-, rfl⟩
  refine does_andThen (does_drag _ _) (fun d => mono_andThen (mono_lift _) fun _ =>
    m6 (u, a) (w, e) t d) (fun _ _ _ _ h g => ⟨g.ac _ _ h.1, g.pol _ _ h.2⟩) ?_
  rintro d d' -
  refine does_andThen does_lift (fun _ => m6 (u, a) (w, e) t d) (fun _ _ _ _ h _ => h) ?_
  rintro x x' -
  refine does_andThen (does_fuelModel _ _ _) (fun _ => mono_ret _) (fun _ _ _ _ h _ => h) ?_
  rintro m m' ⟨-, rfl⟩
  exact does_ret _ _ fun s _ _ hd _ he ha => ⟨ha.2, ⟨e.2, he.2⟩, rfl, hd.1, hd.2, rfl⟩

theorem does_emission (ac : Str) (eng : Option Str) (syn : Option Bool) :
    Does db (emission db ac eng syn) (Construct.emission db ac eng syn)
      fun s u v => u.2.1 = v.1.number ∧ ∃ n, Cache.read s.eng u.2.2 = some (v.2, n) := by
  refine does_andThen (does_aircraft _ _) (fun u => mono_andThen (mono_engine _) fun e => mono_ret _)
    (fun s s' u v h g => ⟨h.1, g.ac _ _ h.2⟩) ?_
  rintro ⟨u, a⟩ v ⟨-, h, -⟩
  simp only at h
  subst h
  refine does_andThen (does_engine _) (fun e => mono_ret _)
    (fun s s' u v h g => ⟨h.1, g.eng _ _ h.2⟩) ?_
  rintro ⟨w, e⟩ v ⟨-, h, -⟩
  simp only at h
  subst h
  exact does_ret _ _ fun s he _ => ⟨rfl, e.2, he.2⟩

theorem does_map {m : M β} {x : Except PyError γ} {β' γ' : Type} {P : Store → β → γ → Prop}
    {f : β → β'} {g : γ → γ'} {Q : Store → β' → γ' → Prop} (h : Does db m x P)
    (hPQ : ∀ s u v, P s u v → Q s (f u) (g v)) :
    Does db (andThen m fun u => ret (f u)) (x.map g) Q := by
  intro s hs
  have := h s hs
  revert this
  unfold andThen
  rcases m s with ⟨r, s'⟩
  cases r <;> cases x
  · exact id
  · exact id
  · exact id
  · exact fun h => ⟨hPQ _ _ _ h.1, h.2⟩

theorem does_create (r : Req) :
    Does db (create db r) (alone db r) fun s o v => view s o = some v := by
  cases r with
  | aircraft ac syn =>
    refine does_map (does_aircraft ac syn) fun s u v h => ?_
    simp [view, h.2]
  | engine q =>
    refine does_map (does_engine q) fun s u v h => ?_
    simp [view, h.2]
  | thrust ac eng syn force =>
    refine does_map (does_thrust ac eng syn force) fun s u v h => ?_
    simp [view, h]
  | drag ac syn =>
    refine does_map (does_drag ac syn) fun s u v h => ?_
    simp [view, viewDrag, h.1, h.2]
  | fuel ac eng syn force =>
    refine does_map (does_fuel ac eng syn force) fun s u v h => ?_
    obtain ⟨h1, ⟨n, h2⟩, h3, h4, h5, h6⟩ := h
    simp [view, viewFuel, viewDrag, h1, h2, h3, h4, h5, h6, Construct.fuelParams]
  | emission ac eng syn =>
    refine does_map (does_emission ac eng syn) fun s u v h => ?_
    obtain ⟨h1, n, h2⟩ := h
    simp [view, h1, h2, Construct.emissionParams]

theorem Clean.empty : Clean db Store.empty := by
  constructor <;> simp [Store.empty, Cache.Ok]

theorem Clean.run {s : Store} (hs : Clean db s) {ops : List Op} (hops : ∀ op ∈ ops, op.Reads) :
    Clean db (run db s ops) := by
  induction ops generalizing s with
  | nil => exact hs
  | cons op ops ih =>
    refine ih ?_ fun x hx => hops x (by simp [hx])
    cases op with
    | new r =>
      have := does_create (db := db) r s hs
      simp only [step]
      revert this
      rcases create db r s with ⟨x, s'⟩
      cases x <;> cases alone db r
      · exact fun h => h.2
      · exact False.elim
      · exact False.elim
      · exact fun h => ⟨h.2.ok, h.2.data⟩
    | _ => exact (hops _ List.mem_cons_self).elim

/-! ### Records that stay in the cache -/

theorem lower_lower (s : Str) : lower (lower s) = lower s := by
  simp only [lower, List.map_map]
  refine List.map_congr_left fun c _ => ?_
  simp only [Function.comp, loC]
  split_ifs <;> omega

theorem aircraft_lower (ac : Str) (syn : Bool) :
    Registry.aircraft db (lower ac) syn = Registry.aircraft db ac syn := by
  unfold Registry.aircraft
  rw [lower_lower]

theorem mem_engName {ac : Str} {eng : Option Str} {syn : Option Bool} {a : AircraftRow}
    (h : Registry.aircraft db ac (syn.getD false) = .ok a) :
    engName db ac eng syn = [eng.getD a.default] := by
  unfold engName
  cases eng <;> simp [h]

/-- A call that keeps a record in the cache. -/
def Keeps (q : Str) (a : ℕ) (K : Finset Str) (m : M β) : Prop :=
  ∀ s, Cache.Held s.eng q a K → Cache.Held (m s).2.eng q a K

section
variable {q : Str} {a : ℕ} {K : Finset Str}

theorem keeps_andThen {m : M β} {k : β → M γ} (hm : Keeps q a K m)
    (hk : ∀ x s s', m s = (.ok x, s') → Keeps q a K (k x)) : Keeps q a K (andThen m k) := by
  intro s hs
  have h := hm s hs
  unfold andThen
  rcases e : m s with ⟨r, s'⟩
  rw [e] at h
  cases r with
  | error x => exact h
  | ok x => exact hk x s s' e s' h

theorem keeps_ret (x : β) : Keeps q a K (ret x) := fun _ h => h

theorem keeps_lift (x : Except PyError β) : Keeps q a K (lift x) := fun _ h => h

theorem keeps_aircraft (ac : Str) (syn : Bool) : Keeps q a K (aircraft db ac syn) := by
  intro s hs
  unfold aircraft
  cases Registry.aircraft db ac syn <;> exact hs

theorem keeps_polar (ac : Str) (syn : Option Bool) : Keeps q a K (polar db ac syn) := by
  intro s hs
  unfold polar
  cases Construct.polar db ac syn <;> exact hs

theorem keeps_engine (hK : K.card < 128) {k : Str} (hk : k = q ∨ k ∈ K) :
    Keeps q a K (engine db k) := by
  intro s hs
  rw [engine_state]
  exact hs.call hK k hk

theorem keeps_thrust (hK : K.card < 128) {ac : Str} {eng : Option Str} {syn : Option Bool}
    {force : Bool} (h : ∀ k ∈ asks db (.thrust ac eng syn force), k = q ∨ k ∈ K) :
    Keeps q a K (thrust db ac eng syn force) := by
  refine keeps_andThen (keeps_aircraft _ _) fun x s s' hx => ?_
  refine keeps_andThen (keeps_engine hK (h _ ?_)) fun y _ _ _ => ?_
  · simp [asks, mem_engName (aircraft_ok hx).2.1]
  · split_ifs
    · exact keeps_lift _
    · exact keeps_ret _

theorem keeps_drag (ac : Str) (syn : Option Bool) : Keeps q a K (drag db ac syn) :=
  keeps_andThen (keeps_aircraft _ _) fun _ _ _ _ => keeps_andThen (keeps_polar _ _) fun _ _ _ _ =>
    keeps_ret _

theorem keeps_fuelModel (hK : K.card < 128) {ac t : Str} {e : EngineRow}
    (h : ∀ r, Construct.fuelRow db ac = some r → r.engineType = q ∨ r.engineType ∈ K) :
    Keeps q a K (fuelModel db ac t e) := by
  unfold fuelModel
  cases hr : Construct.fuelRow db ac with
  | some r =>
    dsimp only
    split_ifs
    · exact keeps_ret _
    · exact keeps_andThen (keeps_engine hK (h r hr)) fun _ _ _ _ => keeps_ret _
    · exact keeps_ret _
  | none =>
    dsimp only
    cases Construct.fuelRow db Construct.defaultStr with
    | some r => exact keeps_ret _
    | none => exact keeps_lift _

/-- `FuelFlow.__init__` after the engine record has been fetched. -/
theorem keeps_fuelRest (hK : K.card < 128) {ac : Str} {eng : Option Str} {syn : Option Bool}
    {force : Bool} {x : ℕ × AircraftRow} {y : ℕ × (EngineRow × Str)}
    (hx : Registry.aircraft db ac (syn.getD false) = .ok x.2)
    (h : ∀ k ∈ asks db (.fuel ac eng syn force), k = q ∨ k ∈ K) :
    Keeps q a K (andThen (thrust db ac (some (eng.getD x.2.default)) syn force) fun t =>
      andThen (drag db ac syn) fun d => andThen (lift (Construct.wrap db ac syn)) fun _ =>
      andThen (fuelModel db (lower ac) (upper (eng.getD x.2.default)) y.2.1) fun m =>
      ret (⟨x.1, y.1, t, d, m⟩ : FuelObj)) := by
  refine keeps_andThen (keeps_thrust hK ?_) fun _ _ _ _ => keeps_andThen (keeps_drag _ _) fun _ _ _ _ =>
    keeps_andThen (keeps_lift _) fun _ _ _ _ => keeps_andThen (keeps_fuelModel hK ?_) fun _ _ _ _ =>
    keeps_ret _
  · intro k hk
    refine h k ?_
    simp only [asks, mem_engName hx, Option.getD_some, List.map_cons, List.map_nil,
      List.mem_singleton] at hk
    simp [asks, mem_engName hx, hk]
  · intro r hr
    refine h _ ?_
    simp [asks, hr]

theorem keeps_create (hK : K.card < 128) {r : Req} (h : ∀ k ∈ asks db r, k = q ∨ k ∈ K) :
    Keeps q a K (create db r) := by
  cases r with
  | aircraft ac syn => exact keeps_andThen (keeps_aircraft _ _) fun _ _ _ _ => keeps_ret _
  | engine k => exact keeps_andThen (keeps_engine hK (h k (by simp [asks]))) fun _ _ _ _ => keeps_ret _
  | thrust ac eng syn force => exact keeps_andThen (keeps_thrust hK h) fun _ _ _ _ => keeps_ret _
  | drag ac syn => exact keeps_andThen (keeps_drag _ _) fun _ _ _ _ => keeps_ret _
  | fuel ac eng syn force =>
    refine keeps_andThen ?_ fun _ _ _ _ => keeps_ret _
    refine keeps_andThen (keeps_aircraft _ _) fun x s s' hx => ?_
    have hx := (aircraft_ok hx).2.1
    rw [aircraft_lower] at hx
    refine keeps_andThen (keeps_engine hK (h _ ?_)) fun y _ _ _ => keeps_fuelRest hK hx h
    simp [asks, mem_engName hx]
  | emission ac eng syn =>
    refine keeps_andThen ?_ fun _ _ _ _ => keeps_ret _
    refine keeps_andThen (keeps_aircraft _ _) fun x s s' hx => ?_
    refine keeps_andThen (keeps_engine hK (h _ ?_)) fun y _ _ _ => keeps_ret _
    simp [asks, mem_engName (aircraft_ok hx).2.1]

theorem held_run (hK : K.card < 128) {ops : List Op}
    (h : ∀ r, Op.new r ∈ ops → ∀ k ∈ asks db r, k = q ∨ k ∈ K) {s : Store}
    (hs : Cache.Held s.eng q a K) : Cache.Held (run db s ops).eng q a K := by
  induction ops generalizing s with
  | nil => exact hs
  | cons op ops ih =>
    refine ih (fun r hr => h r (by simp [hr])) ?_
    cases op with
    | new r =>
      have := keeps_create (db := db) (a := a) hK (h r (by simp)) s hs
      simp only [step]
      revert this
      rcases create db r s with ⟨x, s'⟩
      cases x <;> exact id
    | _ => exact hs

/-- The record an object gets is then the most recently used one. -/
theorem engine_held {k : Str} {s s' : Store} {x : ℕ × (EngineRow × Str)} (hs : Cache.Ok s.eng)
    (h : engine db k s = (.ok x, s')) : Cache.Held s'.eng k x.1 K := by
  obtain ⟨h1, h2, -⟩ := engine_ok h
  obtain ⟨-, t, ht⟩ := (Cache.call_ok (Registry.engine db) hs k).2.2.2 x.1 h1
  rw [h2] at ht
  exact ⟨[], t, ht, by simp, by simp⟩

theorem create_held (hK : K.card < 128) {r : Req} {s s' : Store} {o : Obj} (hs : Cache.Ok s.eng)
    (h : create db r s = (.ok o, s')) (hq : q ∈ key db r)
    (hr : ∀ k ∈ asks db r, k = q ∨ k ∈ K) : ∃ a, o.engine? = some a ∧ Cache.Held s'.eng q a K := by
  cases r with
  | engine k =>
    obtain ⟨x, t, h1, h2⟩ := andThen_ok h
    simp only [ret, Prod.mk.injEq, Except.ok.injEq] at h2
    obtain ⟨rfl, rfl⟩ := h2
    simp only [key, List.mem_singleton] at hq
    subst hq
    exact ⟨x.1, rfl, engine_held hs h1⟩
  | fuel ac eng syn force =>
    obtain ⟨f, t, h1, h2⟩ := andThen_ok h
    simp only [ret, Prod.mk.injEq, Except.ok.injEq] at h2
    obtain ⟨rfl, rfl⟩ := h2
    obtain ⟨b, s1, k1, h2⟩ := andThen_ok h1
    obtain ⟨e, s2, h3, h4⟩ := andThen_ok h2
    have o1 : Cache.Ok s1.eng := by rw [(aircraft_ok k1).2.2.2.2]; exact hs
    have hb := (aircraft_ok k1).2.1
    rw [aircraft_lower] at hb
    simp only [key, mem_engName hb, List.mem_singleton] at hq
    subst hq
    have := keeps_fuelRest (a := e.1) (y := e) hK hb hr s2 (engine_held o1 h3)
    rw [h4] at this
    obtain ⟨th, s3, h5, h6⟩ := andThen_ok h4
    obtain ⟨d, s4, h7, h8⟩ := andThen_ok h6
    obtain ⟨w, s5, h9, h10⟩ := andThen_ok h8
    obtain ⟨m, s6, h11, h12⟩ := andThen_ok h10
    simp only [ret, Prod.mk.injEq, Except.ok.injEq] at h12
    obtain ⟨rfl, rfl⟩ := h12
    exact ⟨e.1, rfl, this⟩
  | emission ac eng syn =>
    obtain ⟨f, t, h1, h2⟩ := andThen_ok h
    simp only [ret, Prod.mk.injEq, Except.ok.injEq] at h2
    obtain ⟨rfl, rfl⟩ := h2
    obtain ⟨b, s1, k1, h2⟩ := andThen_ok h1
    obtain ⟨e, s2, h3, h4⟩ := andThen_ok h2
    simp only [ret, Prod.mk.injEq, Except.ok.injEq] at h4
    obtain ⟨rfl, rfl⟩ := h4
    have o1 : Cache.Ok s1.eng := by rw [(aircraft_ok k1).2.2.2.2]; exact hs
    simp only [key, mem_engName (aircraft_ok k1).2.1, List.mem_singleton] at hq
    subst hq
    exact ⟨e.1, rfl, engine_held o1 h3⟩
  | _ => simp [key] at hq

/-- While a record is in the cache, objects asking for it get it. -/
theorem create_same {r : Req} {s s' : Store} {o : Obj} (hs : Cache.Held s.eng q a K)
    (h : create db r s = (.ok o, s')) (hq : q ∈ key db r) : o.engine? = some a := by
  have get : ∀ {s s' : Store} {x : ℕ × (EngineRow × Str)}, Cache.Held s.eng q a K →
      engine db q s = (.ok x, s') → x.1 = a := by
    intro s s' x hs hx
    have := (engine_ok hx).1
    simp only [Cache.call, hs.lookup, Except.ok.injEq] at this
    exact this.symm
  cases r with
  | engine k =>
    obtain ⟨x, t, h1, h2⟩ := andThen_ok h
    simp only [ret, Prod.mk.injEq, Except.ok.injEq] at h2
    obtain ⟨rfl, rfl⟩ := h2
    simp only [key, List.mem_singleton] at hq
    subst hq
    simp only [Obj.engine?, get hs h1]
  | fuel ac eng syn force =>
    obtain ⟨f, t, h1, h2⟩ := andThen_ok h
    simp only [ret, Prod.mk.injEq, Except.ok.injEq] at h2
    obtain ⟨rfl, rfl⟩ := h2
    obtain ⟨b, s1, k1, h2⟩ := andThen_ok h1
    obtain ⟨e, s2, h3, h4⟩ := andThen_ok h2
    have o1 : Cache.Held s1.eng q a K := by rw [(aircraft_ok k1).2.2.2.2]; exact hs
    have hb := (aircraft_ok k1).2.1
    rw [aircraft_lower] at hb
    simp only [key, mem_engName hb, List.mem_singleton] at hq
    subst hq
    have := get o1 h3
    obtain ⟨th, s3, h5, h6⟩ := andThen_ok h4
    obtain ⟨d, s4, h7, h8⟩ := andThen_ok h6
    obtain ⟨w, s5, h9, h10⟩ := andThen_ok h8
    obtain ⟨m, s6, h11, h12⟩ := andThen_ok h10
    simp only [ret, Prod.mk.injEq, Except.ok.injEq] at h12
    obtain ⟨rfl, rfl⟩ := h12
    simp only [Obj.engine?, this]
  | emission ac eng syn =>
    obtain ⟨f, t, h1, h2⟩ := andThen_ok h
    simp only [ret, Prod.mk.injEq, Except.ok.injEq] at h2
    obtain ⟨rfl, rfl⟩ := h2
    obtain ⟨b, s1, k1, h2⟩ := andThen_ok h1
    obtain ⟨e, s2, h3, h4⟩ := andThen_ok h2
    simp only [ret, Prod.mk.injEq, Except.ok.injEq] at h4
    obtain ⟨rfl, rfl⟩ := h4
    have o1 : Cache.Held s1.eng q a K := by rw [(aircraft_ok k1).2.2.2.2]; exact hs
    simp only [key, mem_engName (aircraft_ok k1).2.1, List.mem_singleton] at hq
    subst hq
    simp only [Obj.engine?, get o1 h3]
  | _ => simp [key] at hq

end

end Verif.Objects
