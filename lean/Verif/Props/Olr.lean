import Verif.Lemmas.Olr
import Verif.Spec.Olr

/-!
# C117: reading outgoing longwave radiation from a file
-/

namespace Verif.Props
open Verif.Olr Verif.Spec.Olr Verif.Tables

/-- A file of the documented layout: `v` is the data variable, its dimensions are latitude,
longitude (under the names `la`, `lo`) and time in some order, `nodes` their coordinate values
in some order without repetition. -/
structure OlrFile (ds : Dataset) (v : Var) (la lo : Str) (nodes : Str → List ℝ) : Prop where
  var : ∃ n, ds.vars.lookup n = some v ∧
    ((n = name "olr") ∨
     (n = name "OLR" ∧ ¬ name "olr" ∈ ds.vars.map (·.1)) ∨
     (n = name "olr_avg" ∧ ¬ name "olr" ∈ ds.vars.map (·.1) ∧ ¬ name "OLR" ∈ ds.vars.map (·.1)) ∨
     (n = name "toa_lw_all_daily" ∧ ¬ name "olr" ∈ ds.vars.map (·.1) ∧ ¬ name "OLR" ∈ ds.vars.map (·.1) ∧
      ¬ name "olr_avg" ∈ ds.vars.map (·.1)))
  lat : la = name "lat" ∨ (la = name "latitude" ∧ ¬ name "lat" ∈ ds.coords.map (·.1))
  lon : lo = name "lon" ∨ (lo = name "longitude" ∧ ¬ name "lon" ∈ ds.coords.map (·.1))
  dims : (v.dims.map (·.1)).Perm [la, lo, name "time"]
  coord : ∀ d ∈ v.dims, ds.coords.lookup d.1 = some (nodes d.1)
  distinct : ∀ d ∈ v.dims, (nodes d.1).Nodup

theorem name_olr : name "olr" = sOlr := by decide
theorem name_OLR : name "OLR" = sOLR := by decide
theorem name_olrAvg : name "olr_avg" = sOlrAvg := by decide
theorem name_toa : name "toa_lw_all_daily" = sToa := by decide
theorem name_lat : name "lat" = sLat := by decide
theorem name_latitude : name "latitude" = sLatitude := by decide
theorem name_lon : name "lon" = sLon := by decide
theorem name_longitude : name "longitude" = sLongitude := by decide
theorem name_time : name "time" = sTime := by decide

/-- The same in terms of character codes. -/
structure OlrRaw (ds : Dataset) (v : Var) (la lo : Str) (nodes : Str → List ℝ) : Prop where
  var : ∃ name, ds.vars.lookup name = some v ∧
    ((name = sOlr) ∨
     (name = sOLR ∧ ¬ sOlr ∈ ds.vars.map (·.1)) ∨
     (name = sOlrAvg ∧ ¬ sOlr ∈ ds.vars.map (·.1) ∧ ¬ sOLR ∈ ds.vars.map (·.1)) ∨
     (name = sToa ∧ ¬ sOlr ∈ ds.vars.map (·.1) ∧ ¬ sOLR ∈ ds.vars.map (·.1) ∧
      ¬ sOlrAvg ∈ ds.vars.map (·.1)))
  lat : la = sLat ∨ (la = sLatitude ∧ ¬ sLat ∈ ds.coords.map (·.1))
  lon : lo = sLon ∨ (lo = sLongitude ∧ ¬ sLon ∈ ds.coords.map (·.1))
  dims : (v.dims.map (·.1)).Perm [la, lo, sTime]
  coord : ∀ d ∈ v.dims, ds.coords.lookup d.1 = some (nodes d.1)
  distinct : ∀ d ∈ v.dims, (nodes d.1).Nodup

theorem OlrFile.raw {ds : Dataset} {v : Var} {la lo : Str} {nodes : Str → List ℝ}
    (h : OlrFile ds v la lo nodes) : OlrRaw ds v la lo nodes := by
  obtain ⟨h1, h2, h3, h4, h5, h6⟩ := h
  simp only [name_olr, name_OLR, name_olrAvg, name_toa, name_lat, name_latitude, name_lon,
    name_longitude, name_time] at h1 h2 h3 h4
  exact ⟨h1, h2, h3, h4, h5, h6⟩

/-- The request that belongs to a dimension. -/
noncomputable def wanted (la lo : Str) {β : Type} (lat lon time : β) (d : Str) : β :=
  if d = la then lat else if d = lo then lon else time

theorem lookup_mem {β : Type} {l : List (Str × β)} {k : Str} {x : β} (h : l.lookup k = some x) :
    k ∈ l.map (·.1) := by
  induction l with
  | nil => cases h
  | cons p l ih =>
    obtain ⟨a, y⟩ := p
    rw [List.lookup_cons] at h
    by_cases e : k = a
    · subst e; simp
    · have : (k == a) = false := by simpa using e
      rw [this] at h
      exact List.mem_cons_of_mem _ (ih h)

/-- The axis a request makes. -/
def axisOf (nodes : List ℝ) : Arg → Axis
  | .scalar x => .point nodes x
  | .array xs => .line nodes xs

theorem load_eq {ds : Dataset} {v : Var} {la lo : Str} {nodes : Str → List ℝ}
    (h : OlrRaw ds v la lo nodes) (lat lon time : Arg) :
    loadOlr ds lat lon time = .ok
      ⟨(v.dims.map fun d => axisOf (nodes d.1) (wanted la lo lat lon time d.1)).filterMap Axis.length,
       evalAt (v.dims.map fun d => axisOf (nodes d.1) (wanted la lo lat lon time d.1))
         fun is => .val (v.values is)⟩ := by
  obtain ⟨name, hv, hname⟩ := h.var
  have hin := lookup_mem hv
  have e1 : ([sOlr, sOLR, sOlrAvg, sToa].find? fun n => (ds.vars.map (·.1)).contains n) =
      some name := by
    have hc : ∀ n, (ds.vars.map (·.1)).contains n = decide (n ∈ ds.vars.map (·.1)) := fun n => by
      rw [List.contains_eq_mem]
    simp only [List.find?, hc]
    rcases hname with rfl | ⟨rfl, a⟩ | ⟨rfl, a, b⟩ | ⟨rfl, a, b, c⟩
    · rw [decide_eq_true hin]
    · rw [decide_eq_true hin, decide_eq_false a]
    · rw [decide_eq_true hin, decide_eq_false a, decide_eq_false b]
    · rw [decide_eq_true hin, decide_eq_false a, decide_eq_false b, decide_eq_false c]
  have hmem : ∀ x, x ∈ v.dims.map (·.1) ↔ x = la ∨ x = lo ∨ x = sTime := fun x => by
    rw [h.dims.mem_iff]; simp
  have hco : ∀ x ∈ v.dims.map (·.1), x ∈ ds.coords.map (·.1) := by
    intro x hx
    obtain ⟨d, hd, rfl⟩ := List.mem_map.1 hx
    exact lookup_mem (h.coord d hd)
  have hc : ∀ n, (ds.coords.map (·.1)).contains n = decide (n ∈ ds.coords.map (·.1)) := fun n => by
    rw [List.contains_eq_mem]
  have e2 : ([sLat, sLatitude].find? fun n => (ds.coords.map (·.1)).contains n) = some la := by
    have hin := hco la ((hmem la).2 (Or.inl rfl))
    simp only [List.find?, hc]
    rcases h.lat with rfl | ⟨rfl, a⟩
    · rw [decide_eq_true hin]
    · rw [decide_eq_true hin, decide_eq_false a]
  have e3 : ([sLon, sLongitude].find? fun n => (ds.coords.map (·.1)).contains n) = some lo := by
    have hin := hco lo ((hmem lo).2 (Or.inr (Or.inl rfl)))
    simp only [List.find?, hc]
    rcases h.lon with rfl | ⟨rfl, a⟩
    · rw [decide_eq_true hin]
    · rw [decide_eq_true hin, decide_eq_false a]
  unfold loadOlr
  simp only [e1, e2, e3, hv]
  unfold interp
  have e4 : ([(some la, lat), (some lo, lon), (some sTime, time)].any fun p =>
      !(v.dims.map fun d => some d.1).contains p.1) = false := by
    have : ∀ x, x ∈ v.dims.map (·.1) → (v.dims.map fun d => some d.1).contains (some x) = true := by
      intro x hx
      obtain ⟨d, hd, rfl⟩ := List.mem_map.1 hx
      rw [List.contains_eq_mem, decide_eq_true_iff]
      exact List.mem_map.2 ⟨d, hd, rfl⟩
    simp only [List.any, this la ((hmem la).2 (Or.inl rfl)),
      this lo ((hmem lo).2 (Or.inr (Or.inl rfl))), this sTime ((hmem sTime).2 (Or.inr (Or.inr rfl))),
      Bool.not_true, Bool.or_false]
  rw [e4]
  simp only [Bool.false_eq_true, if_false]
  have e5 : ∀ l : List (Str × ℕ), (∀ d ∈ l, d ∈ v.dims) →
      l.mapM (axisFor ds [(some la, lat), (some lo, lon), (some sTime, time)]) =
      .ok (l.map fun d => axisOf (nodes d.1) (wanted la lo lat lon time d.1)) := by
    intro l hl
    induction l with
    | nil => rfl
    | cons d l ih =>
      have hd := hl d (List.mem_cons_self ..)
      have e6 : [(some la, lat), (some lo, lon), (some sTime, time)].lookup (some d.1) =
          some (wanted la lo lat lon time d.1) := by
        have hdm := (hmem d.1).1 (List.mem_map.2 ⟨d, hd, rfl⟩)
        unfold wanted
        simp only [List.lookup]
        by_cases h1 : d.1 = la
        · simp [h1]
        · have b1 : (some d.1 == some la) = false := by simpa using h1
          rw [b1, if_neg h1]
          by_cases h2 : d.1 = lo
          · simp [h2]
          · have b2 : (some d.1 == some lo) = false := by simpa using h2
            rw [b2, if_neg h2]
            have h3 : d.1 = sTime := by tauto
            simp [h3]
      have e7 : axisFor ds [(some la, lat), (some lo, lon), (some sTime, time)] d =
          .ok (axisOf (nodes d.1) (wanted la lo lat lon time d.1)) := by
        unfold axisFor
        rw [e6, h.coord d hd]
        cases wanted la lo lat lon time d.1 <;> rfl
      rw [List.mapM_cons, ih fun d hd => hl d (List.mem_cons_of_mem _ hd), e7]
      rfl
  have := e5 v.dims fun _ h => h
  rw [this]
  rfl

/-- Values of a list of point requests. -/
theorem eval_points {α : Type} (l : List α) (nodes : α → List ℝ) (q : α → ℝ)
    (hn : ∀ d ∈ l, (nodes d).Nodup) :
    (∀ (k : α → ℕ), (∀ d ∈ l, Node (nodes d) (k d) (q d)) → ∀ v,
      evalAt (l.map fun d => Axis.point (nodes d) (q d)) v [] = v (l.map k)) ∧
    (∀ (i j : α → ℕ) (w : α → ℝ), (∀ d ∈ l, Cell (nodes d) (q d) (i d) (j d) (w d)) →
      ∀ v : List ℕ → ℝ, evalAt (l.map fun d => Axis.point (nodes d) (q d)) (fun is => .val (v is)) [] =
        .val (corners (l.map fun d => (i d, j d, w d)) v)) ∧
    ((∃ d ∈ l, Beyond (nodes d) (q d)) → ∀ v,
      evalAt (l.map fun d => Axis.point (nodes d) (q d)) v [] = .nan) ∧
    ((∀ d ∈ l, Inside (nodes d) (q d)) → ∀ (v : List ℕ → ℝ) (a b : ℝ),
      (∀ is, a ≤ v is ∧ v is ≤ b) →
      ∃ y, evalAt (l.map fun d => Axis.point (nodes d) (q d)) (fun is => .val (v is)) [] = .val y ∧
        a ≤ y ∧ y ≤ b) := by
  induction l with
  | nil =>
    refine ⟨fun _ _ _ => rfl, fun _ _ _ _ _ => rfl, ?_, fun _ v a b h => ⟨v [], rfl, h []⟩⟩
    rintro ⟨d, hd, -⟩; cases hd
  | cons d l ih =>
    obtain ⟨i1, i2, i3, i4⟩ := ih fun d hd => hn d (List.mem_cons_of_mem _ hd)
    have nd := hn d (List.mem_cons_self ..)
    refine ⟨?_, ?_, ?_, ?_⟩
    · intro k hk v
      rw [List.map_cons, List.map_cons, evalAt]
      rw [interp1_node _ nd (hk d (List.mem_cons_self ..))]
      exact i1 k (fun d hd => hk d (List.mem_cons_of_mem _ hd)) _
    · intro i j w hc v
      rw [List.map_cons, List.map_cons, evalAt, corners]
      obtain ⟨a, c, ha, hcn, hac, hno, w0, w1, hx⟩ := hc d (List.mem_cons_self ..)
      have hc' := fun d hd => hc d (List.mem_cons_of_mem _ hd)
      rw [interp1_between _ nd ha hcn hac hno (by nlinarith) (by nlinarith)
        (i2 i j w hc' _) (i2 i j w hc' _)]
      congr 1
      rw [hx]
      have : c - a ≠ 0 := (sub_pos.2 hac).ne'
      field_simp
      ring
    · rintro ⟨e, he, hb⟩ v
      rw [List.map_cons, evalAt]
      rcases List.mem_cons.1 he with rfl | he
      · exact interp1_outside _ hb
      · exact interp1_nan _ _ fun k => i3 ⟨e, he, hb⟩ _
    · intro hin v a b hv
      rw [List.map_cons, evalAt]
      obtain ⟨h1, h2⟩ := hin d (List.mem_cons_self ..)
      exact interp1_range _ nd
        (fun k => i4 (fun d hd => hin d (List.mem_cons_of_mem _ hd)) _ a b fun is => hv _) h1 h2

/-- **C117.** The radiation is read from the first of `olr`, `OLR`, `olr_avg`,
`toa_lw_all_daily` that the file holds; a file with none of them, with neither `lat` nor
`latitude`, with neither `lon` nor `longitude`, or whose variable has no `time` dimension, is a
`ValueError`. -/
theorem C117_errors (ds : Dataset) (lat lon time : Arg) :
    ((∀ n ∈ [name "olr", name "OLR", name "olr_avg", name "toa_lw_all_daily"], n ∉ ds.vars.map (·.1)) →
      loadOlr ds lat lon time = .error .valueError) ∧
    (∀ n v, n ∈ [name "olr", name "OLR", name "olr_avg", name "toa_lw_all_daily"] → ds.vars = [(n, v)] →
      ((name "lat" ∉ ds.coords.map (·.1) ∧ name "latitude" ∉ ds.coords.map (·.1)) ∨
       (name "lon" ∉ ds.coords.map (·.1) ∧ name "longitude" ∉ ds.coords.map (·.1)) ∨
       name "time" ∉ v.dims.map (·.1)) →
      loadOlr ds lat lon time = .error .valueError) := by
  simp only [name_olr, name_OLR, name_olrAvg, name_toa, name_lat, name_latitude, name_lon,
    name_longitude, name_time]
  constructor
  · intro h
    have : ([sOlr, sOLR, sOlrAvg, sToa].find? fun n => (ds.vars.map (·.1)).contains n) = none := by
      rw [List.find?_eq_none]
      intro n hn
      rw [List.contains_eq_mem, decide_eq_true_iff]; exact h n hn
    unfold loadOlr
    rw [this]
  · intro n v hn hv h
    have e1 : ([sOlr, sOLR, sOlrAvg, sToa].find? fun n => (ds.vars.map (·.1)).contains n) =
        some n := by
      rw [hv]
      simp only [List.mem_cons, List.not_mem_nil, or_false] at hn
      rcases hn with rfl | rfl | rfl | rfl <;> rfl
    have e2 : ds.vars.lookup n = some v := by rw [hv]; simp [List.lookup]
    have key : ∀ a b c : Option Str, (a = none ∨ b = none ∨ (c = some sTime ∧ sTime ∉ v.dims.map (·.1))) →
        interp ds v [(a, lat), (b, lon), (c, time)] = .error .valueError := by
      intro a b c habc
      unfold interp
      have hno : (v.dims.map fun d => some d.1).contains none = false := by
        rw [List.contains_eq_mem, decide_eq_false_iff_not]; simp
      have hnt : sTime ∉ v.dims.map (·.1) →
          (v.dims.map fun d => some d.1).contains (some sTime) = false := by
        intro h
        rw [List.contains_eq_mem, decide_eq_false_iff_not]
        intro hm
        obtain ⟨d, hd, e⟩ := List.mem_map.1 hm
        exact h (List.mem_map.2 ⟨d, hd, by injection e⟩)
      have : ([(a, lat), (b, lon), (c, time)].any fun p =>
          !(v.dims.map fun d => some d.1).contains p.1) = true := by
        rw [List.any_eq_true]
        rcases habc with rfl | rfl | ⟨rfl, ht⟩
        · exact ⟨(none, lat), by simp, by simp only [hno]; rfl⟩
        · exact ⟨(none, lon), by simp, by simp only [hno]; rfl⟩
        · exact ⟨(some sTime, time), by simp, by simp only [hnt ht]; rfl⟩
      rw [this]; rfl
    have nof : ∀ l : List Str, (∀ x ∈ l, x ∉ ds.coords.map (·.1)) →
        (l.find? fun n => (ds.coords.map (·.1)).contains n) = none := by
      intro l hl
      rw [List.find?_eq_none]
      intro x hx
      rw [List.contains_eq_mem, decide_eq_true_iff]; exact hl x hx
    unfold loadOlr
    simp only [e1, e2]
    apply key
    rcases h with ⟨a, b⟩ | ⟨a, b⟩ | h
    · left; apply nof; simp only [List.mem_cons, List.not_mem_nil, or_false]
      rintro x (rfl | rfl) <;> assumption
    · right; left; apply nof; simp only [List.mem_cons, List.not_mem_nil, or_false]
      rintro x (rfl | rfl) <;> assumption
    · right; right; exact ⟨rfl, h⟩

/-- **C117.** One place and time. On a grid point the result is the stored value; inside a cell
it is the weighted mean of the eight corners with the fractions travelled along each dimension;
anywhere within the grid it is a number between the smallest and largest stored value; beyond the
first or last coordinate of any dimension it is NaN. This holds for coordinates in any order
(north to south as well) and dimensions in any order. -/
theorem C117_point {ds : Dataset} {v : Var} {la lo : Str} {nodes : Str → List ℝ}
    (h : OlrFile ds v la lo nodes) (lat lon time : ℝ) :
    ∃ o, loadOlr ds (.scalar lat) (.scalar lon) (.scalar time) = .ok o ∧ o.shape = [] ∧
      (∀ k : Str → ℕ, (∀ d ∈ v.dims, Node (nodes d.1) (k d.1) (wanted la lo lat lon time d.1)) →
        o.get [] = .val (v.values (v.dims.map fun d => k d.1))) ∧
      (∀ (i j : Str → ℕ) (w : Str → ℝ),
        (∀ d ∈ v.dims, Cell (nodes d.1) (wanted la lo lat lon time d.1) (i d.1) (j d.1) (w d.1)) →
        o.get [] = .val (corners (v.dims.map fun d => (i d.1, j d.1, w d.1)) v.values)) ∧
      ((∀ d ∈ v.dims, Inside (nodes d.1) (wanted la lo lat lon time d.1)) → ∀ a b : ℝ,
        (∀ is, a ≤ v.values is ∧ v.values is ≤ b) → ∃ y, o.get [] = .val y ∧ a ≤ y ∧ y ≤ b) ∧
      ((∃ d ∈ v.dims, Beyond (nodes d.1) (wanted la lo lat lon time d.1)) → o.get [] = .nan) := by
  replace h := h.raw
  refine ⟨_, load_eq h _ _ _, ?_⟩
  have hax : ∀ d : Str × ℕ,
      axisOf (nodes d.1) (wanted la lo (.scalar lat) (.scalar lon) (.scalar time) d.1) =
      Axis.point (nodes d.1) (wanted la lo lat lon time d.1) := by
    intro d; unfold wanted; split_ifs <;> rfl
  simp only [hax]
  obtain ⟨p1, p2, p3, p4⟩ := eval_points v.dims (fun d => nodes d.1)
    (fun d => wanted la lo lat lon time d.1) h.distinct
  refine ⟨?_, fun k hk => p1 (fun d => k d.1) hk _,
    fun i j w hc => p2 (fun d => i d.1) (fun d => j d.1) (fun d => w d.1) hc _,
    fun hi a b hv => p4 hi _ a b hv, fun hb => p3 hb _⟩
  rw [List.filterMap_eq_nil_iff]
  intro a ha
  obtain ⟨d, -, rfl⟩ := List.mem_map.1 ha
  rfl

/-- Lines evaluate index by index as points. -/
theorem eval_lines {α : Type} (l : List α) (nodes : α → List ℝ) (xs : α → List ℝ) (k : α → ℕ) :
    ∀ v, evalAt (l.map fun d => Axis.line (nodes d) (xs d)) v (l.map k) =
      evalAt (l.map fun d => Axis.point (nodes d) ((xs d).getD (k d) 0)) v [] := by
  induction l with
  | nil => intro v; rfl
  | cons d l ih =>
    intro v
    simp only [List.map_cons]
    rw [evalAt, evalAt]
    congr 1
    funext m
    exact ih _

/-- **C117.** Arrays of places and times do not give one value per place: the result has one axis
per dimension, in the order in which the file stores them, and its entry at `(i, j, k)` is what a
call with the `i`-th, `j`-th and `k`-th request of these dimensions returns. With `n` latitudes,
`n` longitudes and `n` times it holds `n³` numbers. -/
theorem C117_arrays {ds : Dataset} {v : Var} {la lo : Str} {nodes : Str → List ℝ}
    (h : OlrFile ds v la lo nodes) (lats lons times : List ℝ) :
    ∃ o, loadOlr ds (.array lats) (.array lons) (.array times) = .ok o ∧
      o.shape = v.dims.map (fun d => (wanted la lo lats lons times d.1).length) ∧
      (∀ (k : Str → ℕ) (x y z : ℝ) (p : Out),
        lats[k la]? = some x → lons[k lo]? = some y → times[k (name "time")]? = some z →
        loadOlr ds (.scalar x) (.scalar y) (.scalar z) = .ok p →
        o.get (v.dims.map fun d => k d.1) = p.get []) ∧
      (∀ n, lats.length = n → lons.length = n → times.length = n →
        o.shape = [n, n, n] ∧ o.shape.prod = n ^ 3) := by
  replace h := h.raw
  simp only [name_time]
  have hax : ∀ d : Str × ℕ,
      axisOf (nodes d.1) (wanted la lo (.array lats) (.array lons) (.array times) d.1) =
      Axis.line (nodes d.1) (wanted la lo lats lons times d.1) := by
    intro d; unfold wanted; split_ifs <;> rfl
  have hsh : (v.dims.map fun d => Axis.line (nodes d.1) (wanted la lo lats lons times d.1)).filterMap
      Axis.length = v.dims.map (fun d => (wanted la lo lats lons times d.1).length) := by
    rw [List.filterMap_map, ← List.filterMap_eq_map]
    rfl
  refine ⟨_, load_eq h _ _ _, ?_, ?_, ?_⟩
  · simp only [hax]; exact hsh
  · intro k x y z p hx hy hz hp
    have hll : lo ≠ la ∧ sTime ≠ la ∧ sTime ≠ lo := by
      rcases h.lat with rfl | ⟨rfl, -⟩ <;> rcases h.lon with rfl | ⟨rfl, -⟩ <;> decide
    have g : ∀ (l : List ℝ) (i : ℕ) (x : ℝ), l[i]? = some x → x = l.getD i 0 := by
      intro l i x h; rw [List.getD_eq_getElem?_getD, h]; rfl
    rw [g _ _ _ hx, g _ _ _ hy, g _ _ _ hz] at hp
    have w1 : wanted la lo lats lons times la = lats := if_pos rfl
    have w2 : wanted la lo lats lons times lo = lons := by
      unfold wanted; rw [if_neg hll.1, if_pos rfl]
    have w3 : wanted la lo lats lons times sTime = times := by
      unfold wanted; rw [if_neg hll.2.1, if_neg hll.2.2]
    rw [load_eq h] at hp
    injection hp with hp
    subst hp
    simp only [hax]
    rw [eval_lines v.dims (fun d => nodes d.1) (fun d => wanted la lo lats lons times d.1)
      fun d => k d.1]
    congr 1
    refine List.map_congr_left fun d hd => ?_
    have hdm : d.1 = la ∨ d.1 = lo ∨ d.1 = sTime := by
      have := h.dims.mem_iff.1 (List.mem_map.2 ⟨d, hd, rfl⟩)
      simpa using this
    have : wanted la lo (Arg.scalar (lats.getD (k la) 0)) (Arg.scalar (lons.getD (k lo) 0))
        (Arg.scalar (times.getD (k sTime) 0)) d.1 =
        Arg.scalar ((wanted la lo lats lons times d.1).getD (k d.1) 0) := by
      by_cases h1 : d.1 = la
      · rw [h1, w1]; exact if_pos rfl
      · by_cases h2 : d.1 = lo
        · rw [h2, w2]; unfold wanted; rw [if_neg hll.1, if_pos rfl]
        · have h3 : d.1 = sTime := by tauto
          rw [h3, w3]; unfold wanted; rw [if_neg hll.2.1, if_neg hll.2.2]
    rw [this]; rfl
  · intro n h1 h2 h3
    have e : (v.dims.map fun d => (wanted la lo lats lons times d.1).length) =
        List.replicate 3 n := by
      rw [List.eq_replicate_iff]
      constructor
      · have := h.dims.length_eq
        simpa using this
      · intro x hx
        obtain ⟨d, -, rfl⟩ := List.mem_map.1 hx
        unfold wanted; split_ifs <;> assumption
    simp only [hax]
    rw [hsh, e]
    refine ⟨rfl, ?_⟩
    simp [List.replicate]; ring

/-! ### A file -/

/-- Two times, latitudes from north to south, longitudes from 0 to 359 degrees. -/
noncomputable def olrVar : Var :=
  ⟨[(sTime, 2), (sLatitude, 2), (sLon, 2)], fun is => 200 + 10 * (is.sum : ℝ)⟩

/-- Coordinates of the example file. -/
noncomputable def olrNodes (d : Str) : List ℝ :=
  if d = sLatitude then [50, 40] else if d = sLon then [0, 359] else [0, 6]

/-- The example file. -/
noncomputable def olrDs : Dataset :=
  ⟨[(sOLR, olrVar)], [(sTime, [0, 6]), (sLatitude, [50, 40]), (sLon, [0, 359])]⟩

theorem olrFile : OlrFile olrDs olrVar sLatitude sLon olrNodes where
  var := ⟨sOLR, rfl, Or.inr (Or.inl ⟨rfl, by simp [olrDs, name_olr, sOlr, sOLR]⟩)⟩
  lat := Or.inr ⟨rfl, by simp [olrDs, name_lat, sLat, sTime, sLatitude, sLon]⟩
  lon := Or.inl rfl
  dims := by
    show [sTime, sLatitude, sLon].Perm _
    decide
  coord := by
    intro d hd
    simp only [olrVar, List.mem_cons, List.not_mem_nil, or_false] at hd
    rcases hd with rfl | rfl | rfl <;> rfl
  distinct := by
    intro d _
    unfold olrNodes
    split_ifs <;> norm_num

/-- A request a quarter of the way along each dimension. -/
example : ∃ o, loadOlr olrDs (.scalar 47.5) (.scalar 89.75) (.scalar 1.5) = .ok o ∧
    o.get [] = .val 207.5 := by
  obtain ⟨o, ho, -, -, hc, -⟩ := C117_point olrFile 47.5 89.75 1.5
  refine ⟨o, ho, ?_⟩
  have := hc (fun d => if d = sLatitude then 1 else 0) (fun d => if d = sLatitude then 0 else 1)
    (fun d => if d = sLatitude then 0.75 else 0.25) (by
      intro d hd
      simp only [olrVar, List.mem_cons, List.not_mem_nil, or_false] at hd
      have n1 : sTime ≠ sLatitude := by decide
      have n2 : sTime ≠ sLon := by decide
      have n3 : sLon ≠ sLatitude := by decide
      rcases hd with rfl | rfl | rfl
      · refine ⟨0, 6, ?_, ?_, by norm_num, ?_, ?_⟩ <;>
          simp only [olrNodes, wanted, if_neg n1, if_neg n2, Node] <;> norm_num
      · refine ⟨40, 50, ?_, ?_, by norm_num, ?_, ?_⟩ <;>
          simp only [olrNodes, wanted, if_true, Node] <;> norm_num
      · refine ⟨0, 359, ?_, ?_, by norm_num, ?_, ?_⟩ <;>
          simp only [olrNodes, wanted, if_neg n3, if_true, Node] <;> norm_num)
  rw [this]
  simp only [olrVar, List.map, corners, show sTime ≠ sLatitude by decide,
    show sLon ≠ sLatitude by decide, if_true, if_false]
  norm_num

/-- Just west of Greenwich the file that runs from 0 to 359 degrees has no value. -/
example : ∃ o, loadOlr olrDs (.scalar 45) (.scalar (-0.5)) (.scalar 3) = .ok o ∧
    o.get [] = .nan := by
  obtain ⟨o, ho, -, -, -, -, hb⟩ := C117_point olrFile 45 (-0.5) 3
  refine ⟨o, ho, hb ⟨(sLon, 2), by simp [olrVar], Or.inl ?_⟩⟩
  intro y hy
  have n3 : sLon ≠ sLatitude := by decide
  simp only [olrNodes, if_neg n3, if_true, List.mem_cons, List.not_mem_nil, or_false] at hy
  simp only [wanted, if_neg n3, if_true]
  rcases hy with rfl | rfl <;> norm_num

end Verif.Props
