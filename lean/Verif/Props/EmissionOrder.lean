import Verif.Props.Emission

/-!
# C141: more fuel, more NOx; CO and HC are worst at idle
-/

namespace Verif.Props
open Verif.Emission Verif.Aero Verif.Spec Verif.Tables Verif.Registry Verif.Data Real

/-- A piecewise-linear curve through rising points rises. -/
private theorem lto_mono {xs fs : Fin 4 → ℝ} (ho : Ordered xs)
    (hf : fs 0 ≤ fs 1 ∧ fs 1 ≤ fs 2 ∧ fs 2 ≤ fs 3) {x y v w : ℝ} (hx : IsLto xs fs x v)
    (hy : IsLto xs fs y w) (h : x ≤ y) : v ≤ w := by
  have hmono : Monotone fs := Fin.monotone_iff_le_succ.2 (by
    intro k
    fin_cases k
    exacts [hf.1, hf.2.1, hf.2.2])
  have hxs : StrictMono xs := Fin.strictMono_iff_lt_succ.2 (step ho)
  have seg : ∀ k : Fin 3, xs k.castSucc ≤ x → y ≤ xs k.succ → v ≤ w := by
    intro k h1 h2
    have e1 := hx.2.2 k h1 (h.trans h2)
    have e2 := hy.2.2 k (h1.trans h) h2
    have hs := step ho k
    have hk : fs k.castSucc ≤ fs k.succ := hmono (Fin.castSucc_lt_succ).le
    by_contra hc
    nlinarith [mul_nonneg (sub_nonneg.2 hk) (sub_nonneg.2 h), mul_pos (sub_pos.2 (not_le.1 hc))
      (sub_pos.2 hs)]
  have lo : ∀ z u, IsLto xs fs z u → fs 0 ≤ u ∧ u ≤ fs 3 := fun z u hz =>
    IsLto.bounds hz ho (fun k => hmono (Fin.zero_le k)) (fun k => hmono (Fin.le_last k))
  have upper : ∀ (k : Fin 3) (z u : ℝ), IsLto xs fs z u → xs k.castSucc ≤ z → z ≤ xs k.succ →
      fs k.castSucc ≤ u ∧ u ≤ fs k.succ := by
    intro k z u hz h1 h2
    have e1 := hz.2.2 k h1 h2
    have hs := step ho k
    have hk : fs k.castSucc ≤ fs k.succ := hmono (Fin.castSucc_lt_succ).le
    constructor
    · by_contra hc
      nlinarith [mul_nonneg (sub_nonneg.2 hk) (sub_nonneg.2 h1), mul_pos (sub_pos.2 (not_le.1 hc))
        (sub_pos.2 hs)]
    · by_contra hc
      nlinarith [mul_nonneg (sub_nonneg.2 hk) (sub_nonneg.2 h2), mul_pos (sub_pos.2 (not_le.1 hc))
        (sub_pos.2 hs)]
  rcases cover (xs := xs) x with a | a | ⟨k, a1, a2⟩
  · rw [hx.1 a]; exact (lo y w hy).1
  · rw [hy.2.1 (a.trans h)]; exact (lo x v hx).2
  · rcases cover (xs := xs) y with b | b | ⟨j, b1, b2⟩
    · rw [hx.1 (h.trans b)]; exact (lo y w hy).1
    · rw [hy.2.1 b]; exact (lo x v hx).2
    · rcases lt_or_ge k j with kj | kj
      · have h1 := (upper k x v hx a1 a2).2
        have h2 := (upper j y w hy b1 b2).1
        have h3 : fs k.succ ≤ fs j.castSucc := hmono (by
          rw [Fin.le_def]; simp only [Fin.val_succ, Fin.val_castSucc]; omega)
        linarith
      · refine seg k a1 (b2.trans ?_)
        exact hxs.monotone (by rw [Fin.le_def]; simp only [Fin.val_succ]; omega)

/-- The same for falling points, as far as the third one. -/
private theorem lto_anti {xs fs : Fin 4 → ℝ} (ho : Ordered xs) (hf : fs 1 ≤ fs 0 ∧ fs 2 ≤ fs 1)
    {x y v w : ℝ} (hx : IsLto xs fs x v) (hy : IsLto xs fs y w) (h : x ≤ y) (h2 : y ≤ xs 2) :
    w ≤ v := by
  have key : ∀ z u, IsLto xs fs z u → z ≤ xs 2 →
      IsLto xs ![-fs 0, -fs 1, -fs 2, -fs 2] z (-u) := by
    intro z u hz h2
    refine ⟨fun a => by rw [hz.1 a]; rfl, fun a => ?_, fun k a b => ?_⟩
    · have := ho.2.2
      linarith
    · have e := hz.2.2 k a b
      fin_cases k
      · change u * (xs 1 - xs 0) = fs 0 * (xs 1 - z) + fs 1 * (z - xs 0) at e
        change -u * (xs 1 - xs 0) = -fs 0 * (xs 1 - z) + -fs 1 * (z - xs 0)
        linarith
      · change u * (xs 2 - xs 1) = fs 1 * (xs 2 - z) + fs 2 * (z - xs 1) at e
        change -u * (xs 2 - xs 1) = -fs 1 * (xs 2 - z) + -fs 2 * (z - xs 1)
        linarith
      · change u * (xs 3 - xs 2) = fs 2 * (xs 3 - z) + fs 3 * (z - xs 2) at e
        change -u * (xs 3 - xs 2) = -fs 2 * (xs 3 - z) + -fs 2 * (z - xs 2)
        have hz2 : z = xs 2 := le_antisymm h2 a
        rw [hz2] at e ⊢
        linarith
  have := lto_mono ho (fs := ![-fs 0, -fs 1, -fs 2, -fs 2])
    ⟨neg_le_neg hf.1, neg_le_neg hf.2, le_rfl⟩ (key x v hx (h.trans h2)) (key y w hy h2) h
  linarith

/-- Both factors of the altitude correction are positive, and the sea-level fuel flow is proportional
to the fuel flow. -/
private theorem linear (e : Params ℝ) (hn : 0 < e.number) (v alt dT : ℝ) (ha : alt ≤ 145442) :
    ∃ c q : ℝ, 0 < c ∧ 0 < q ∧ ∀ w, fl2sl np e w v alt dT = (c * w, q) := by
  have ha' : 0.0019812 * alt < 288.15 := by norm_num; linarith
  have h1 := fl2sl_eq e 1 v alt dT ha'
  have hT : 0 < temperature np (alt * 0.3048) dT := by rw [temperature_eq]; exact temp_pos _ _
  have hd : 0 < 1 - 0.0019812 * alt / 288.15 := by
    rw [sub_pos, div_lt_iff₀ (by norm_num)]; linarith
  refine ⟨(fl2sl np e 1 v alt dT).1, (fl2sl np e 1 v alt dT).2, ?_, ?_, ?_⟩
  · rw [h1.1]
    unfold bffmFuel bffmDelta
    positivity
  · rw [h1.2]
    unfold bffmRatio bffmDelta
    positivity
  · intro w
    refine Prod.ext ?_ rfl
    simp only [fl2sl]
    ring

private theorem ordered (a : AircraftRow) {r : EngineRow} (hr : r ∈ shipped.engines) :
    Ordered (Construct.emissionParams a r).ff := by
  obtain ⟨-, h1, h2, h3⟩ := shipped_ordered r hr
  exact ⟨Construct.real_lt h1, Construct.real_lt h2, Construct.real_lt h3⟩

/-- The curve passes through the points. -/
private theorem at_point {e : Params ℝ} (ho : Ordered e.ff) (ei : Fin 4 → ℝ) (k : Fin 4) :
    lto np e ei (e.ff k) = ei k := by
  have hs := lto_spec e ei ho (e.ff k)
  have : ∃ j : Fin 3, k = j.castSucc ∨ k = j.succ := by
    fin_cases k
    exacts [⟨0, Or.inl rfl⟩, ⟨1, Or.inl rfl⟩, ⟨2, Or.inl rfl⟩, ⟨2, Or.inr rfl⟩]
  obtain ⟨j, rfl | rfl⟩ := this
  · have := hs.2.2 j le_rfl (step ho j).le
    rw [sub_self, mul_zero, add_zero] at this
    exact mul_right_cancel₀ (sub_pos.2 (step ho j)).ne' this
  · have := hs.2.2 j (step ho j).le le_rfl
    rw [sub_self, mul_zero, zero_add] at this
    exact mul_right_cancel₀ (sub_pos.2 (step ho j)).ne' this

private theorem ff_pos (a : AircraftRow) {r : EngineRow} (hr : r ∈ shipped.engines) (k : Fin 4) :
    0 < (Construct.emissionParams a r).ff k := by
  have h0 : 0 < (Construct.emissionParams a r).ff 0 := Construct.real_pos (shipped_ordered r hr).1
  have hm : StrictMono (Construct.emissionParams a r).ff :=
    Fin.strictMono_iff_lt_succ.2 (step (ordered a hr))
  exact h0.trans_le (hm.monotone (Fin.zero_le k))

/-- **C141, NOx.** With every shipped engine but the piston engine TIO-540-J2B2, on any aircraft, at
any speed, altitude (up to 145442 ft) and temperature: more fuel flow means more NOx, and not less NOx
per kg of fuel. With the TIO-540-J2B2 the NOx per kg falls somewhere. -/
theorem C141_nox (a : AircraftRow) (ha : 0 < a.number) (r : EngineRow) (hr : r ∈ shipped.engines)
    (v alt dT : ℝ) (halt : alt ≤ 145442) :
    (r.name ≠ "TIO-540-J2B2".toList.map Char.toNat → ∀ w w', 0 < w → w < w' →
      nox np (Construct.emissionParams a r) w v alt dT / w ≤
        nox np (Construct.emissionParams a r) w' v alt dT / w' ∧
      nox np (Construct.emissionParams a r) w v alt dT <
        nox np (Construct.emissionParams a r) w' v alt dT) ∧
    (r.name = "TIO-540-J2B2".toList.map Char.toNat → ∃ w w', 0 < w ∧ w < w' ∧
      nox np (Construct.emissionParams a r) w' v alt dT / w' <
        nox np (Construct.emissionParams a r) w v alt dT / w) := by
  have ho := ordered a hr
  obtain ⟨c, q, hc, hq, hl⟩ := linear (Construct.emissionParams a r) (Construct.real_pos ha) v alt dT
    halt
  have table : ∀ r ∈ shipped.engines, if r.name = "TIO-540-J2B2".toList.map Char.toNat then
      r.nox.cout < r.nox.app ∧ 0 < r.ff.app
    else 0 < r.nox.idl ∧ r.nox.idl ≤ r.nox.app ∧ r.nox.app ≤ r.nox.cout ∧ r.nox.cout ≤ r.nox.toff := by
    decide +kernel
  have ht := table r hr
  set e := Construct.emissionParams a r with he
  have form : ∀ w, 0 < w → nox np e w v alt dT / w = lto np e e.nox (c * w) *
      (sqrt (1 / q) * exp (-19 * (0.001 * exp (-0.0001426 * (alt - 12900)) - 0.00634))) := by
    intro w hw
    rw [div_eq_iff hw.ne']
    simp only [nox, hl]
    show lto np e e.nox (c * w) * sqrt (1.0 / q) *
      exp (-19.0 * (0.001 * exp (-0.0001426 * (alt - 12900.0)) - 0.00634)) * w = _
    rw [show (1.0 : ℝ) = 1 by norm_num, show (19.0 : ℝ) = 19 by norm_num,
      show (12900.0 : ℝ) = 12900 by norm_num]
    ring
  set K := sqrt (1 / q) * exp (-19 * (0.001 * exp (-0.0001426 * (alt - 12900)) - 0.00634)) with hK
  have hK0 : 0 < K := by positivity
  constructor
  · intro hn w w' hw hww
    rw [if_neg hn] at ht
    obtain ⟨t0, t1, t2, t3⟩ := ht
    have hw' := hw.trans hww
    have hle := lto_mono ho (fs := e.nox) ⟨Construct.real_le t1, Construct.real_le t2,
      Construct.real_le t3⟩ (lto_spec e e.nox ho (c * w)) (lto_spec e e.nox ho (c * w'))
      (by gcongr)
    have hpos : 0 < lto np e e.nox (c * w) := by
      have p0 : 0 < e.nox 0 := Construct.real_pos t0
      have p1 : e.nox 0 ≤ e.nox 1 := Construct.real_le t1
      have p2 : e.nox 1 ≤ e.nox 2 := Construct.real_le t2
      have p3 : e.nox 2 ≤ e.nox 3 := Construct.real_le t3
      refine p0.trans_le (IsLto.bounds (hi := e.nox 3) (lto_spec e e.nox ho (c * w)) ho ?_ ?_).1
      · intro k
        fin_cases k
        exacts [le_rfl, p1, p1.trans p2, p1.trans (p2.trans p3)]
      · intro k
        fin_cases k
        exacts [p1.trans (p2.trans p3), p2.trans p3, p3, le_rfl]
    have hi : nox np e w v alt dT / w ≤ nox np e w' v alt dT / w' := by
      rw [form w hw, form w' hw']
      gcongr
    refine ⟨hi, ?_⟩
    have h0 : 0 < nox np e w v alt dT / w := by
      rw [form w hw]
      positivity
    calc nox np e w v alt dT = nox np e w v alt dT / w * w := by field_simp
      _ < nox np e w v alt dT / w * w' := by gcongr
      _ ≤ nox np e w' v alt dT / w' * w' := by gcongr
      _ = nox np e w' v alt dT := by field_simp
  · intro hn
    rw [if_pos hn] at ht
    have h1 : 0 < e.ff 1 := Construct.real_pos ht.2
    have h12 : e.ff 1 < e.ff 2 := ho.2.1
    have hw : 0 < e.ff 1 / c := by positivity
    have hw' : 0 < e.ff 2 / c := div_pos (h1.trans h12) hc
    refine ⟨e.ff 1 / c, e.ff 2 / c, hw, by gcongr, ?_⟩
    rw [form _ hw, form _ hw', mul_div_cancel₀ _ hc.ne', mul_div_cancel₀ _ hc.ne']
    rw [at_point ho, at_point ho]
    have : e.nox 2 < e.nox 1 := Construct.real_lt ht.1
    gcongr

/-- What the two orders of a table say about the curve, for an index proportional to it. -/
private theorem orders {e : Params ℝ} (ho : Ordered e.ff) (hf : ∀ k, 0 < e.ff k) {ei : Fin 4 → ℝ}
    (h0 : ∀ k, 0 ≤ ei k) {c q : ℝ} (hc : 0 < c) (hq : 0 < q) {g : ℝ → ℝ}
    (hg : ∀ w, 0 < w → g w = lto np e ei (c * w) * q) :
    ((ei 1 ≤ ei 0 ∧ ei 2 ≤ ei 1) ↔
      ∀ w w', 0 < w → w < w' → c * w' ≤ e.ff 2 → g w' ≤ g w) ∧
    ((ei 1 ≤ ei 0 ∧ ei 2 ≤ ei 0 ∧ ei 3 ≤ ei 0) ↔
      ∀ w w', 0 < w → 0 < w' → c * w ≤ e.ff 0 → g w' ≤ g w) := by
  have pt : ∀ k, 0 < e.ff k / c ∧ g (e.ff k / c) = ei k * q := by
    intro k
    have : 0 < e.ff k / c := div_pos (hf k) hc
    refine ⟨this, ?_⟩
    rw [hg _ this, mul_div_cancel₀ _ hc.ne', at_point ho]
  refine ⟨⟨fun h w w' hw hww hs => ?_, fun h => ?_⟩, fun h w w' hw hw' hs => ?_, fun h => ?_⟩
  · rw [hg w hw, hg w' (hw.trans hww)]
    have := lto_anti ho (fs := ei) h (lto_spec e ei ho (c * w)) (lto_spec e ei ho (c * w'))
      (by gcongr) hs
    gcongr
  · have d : ∀ i j : Fin 4, e.ff i < e.ff j → e.ff j ≤ e.ff 2 → ei j ≤ ei i := by
      intro i j hij h2
      have := h _ _ (pt i).1 (by gcongr : e.ff i / c < e.ff j / c)
        (by rw [mul_div_cancel₀ _ hc.ne']; exact h2)
      rw [(pt i).2, (pt j).2] at this
      exact le_of_mul_le_mul_right this hq
    exact ⟨d 0 1 ho.1 ho.2.1.le, d 1 2 ho.2.1 le_rfl⟩
  · rw [hg w hw, hg w' hw', (lto_spec e ei ho (c * w)).1 hs]
    have hb := (IsLto.bounds (lo := 0) (hi := ei 0) (lto_spec e ei ho (c * w')) ho h0 ?_).2
    · gcongr
    · intro k
      fin_cases k
      exacts [le_rfl, h.1, h.2.1, h.2.2]
  · have d : ∀ j : Fin 4, ei j ≤ ei 0 := by
      intro j
      have := h _ _ (pt 0).1 (pt j).1 (by rw [mul_div_cancel₀ _ hc.ne'])
      rw [(pt 0).2, (pt j).2] at this
      exact le_of_mul_le_mul_right this hq
    exact ⟨d 1, d 2, d 3⟩

/-- **C141, CO.** CO per kg of fuel falls with the fuel flow from idle to climb-out, except for exactly
five shipped engines; it is never above that at or below the idle fuel flow, except for exactly four. -/
theorem C141_co (a : AircraftRow) (ha : 0 < a.number) (r : EngineRow) (hr : r ∈ shipped.engines)
    (v alt dT : ℝ) (halt : alt ≤ 145442) :
    (r.name ∉ ["CFM56-5B1/2", "CFM56-5B2/2", "CFM56-5B4/2", "CFM56-7B20/2", "TIO-540-J2B2"].map
        (fun s : String => s.toList.map Char.toNat) ↔
      ∀ w w', 0 < w → w < w' → ffSl (Construct.emissionParams a r) w' v alt dT ≤ real r.ff.cout →
        co np (Construct.emissionParams a r) w' v alt dT / w' ≤
          co np (Construct.emissionParams a r) w v alt dT / w) ∧
    (r.name ∉ ["CFM56-5B1/2", "CFM56-5B2/2", "CFM56-5B4/2", "TIO-540-J2B2"].map
        (fun s : String => s.toList.map Char.toNat) ↔
      ∀ w w', 0 < w → 0 < w' → ffSl (Construct.emissionParams a r) w v alt dT ≤ real r.ff.idl →
        co np (Construct.emissionParams a r) w' v alt dT / w' ≤
          co np (Construct.emissionParams a r) w v alt dT / w) := by
  obtain ⟨c, q, hc, hq, hl⟩ := linear (Construct.emissionParams a r) (Construct.real_pos ha) v alt dT
    halt
  have table : ∀ r ∈ shipped.engines,
      (r.name ∉ ["CFM56-5B1/2", "CFM56-5B2/2", "CFM56-5B4/2", "CFM56-7B20/2", "TIO-540-J2B2"].map
        (fun s : String => s.toList.map Char.toNat) ↔
        r.ei_co.app ≤ r.ei_co.idl ∧ r.ei_co.cout ≤ r.ei_co.app) ∧
      (r.name ∉ ["CFM56-5B1/2", "CFM56-5B2/2", "CFM56-5B4/2", "TIO-540-J2B2"].map
        (fun s : String => s.toList.map Char.toNat) ↔
        r.ei_co.app ≤ r.ei_co.idl ∧ r.ei_co.cout ≤ r.ei_co.idl ∧ r.ei_co.toff ≤ r.ei_co.idl) := by
    decide +kernel
  have ht := table r hr
  have key := orders (ordered a hr) (ff_pos a hr) (ei := (Construct.emissionParams a r).co)
    (by intro k; fin_cases k <;> exact Construct.real_nonneg _) hc hq
    (g := fun w => co np (Construct.emissionParams a r) w v alt dT / w) (by
      intro w hw
      rw [div_eq_iff hw.ne']
      simp only [co, hl])
  have cast : ∀ m n : ℕ, m ≤ n ↔ real m ≤ real n := fun m n =>
    ⟨Construct.real_le, fun h => by
      by_contra hc
      exact absurd (Construct.real_lt (not_le.1 hc)) (not_lt.2 h)⟩
  rw [ht.1, ht.2]
  simp only [ffSl, hl]
  simp only [cast]
  exact key

/-- **C141, HC.** Unburnt hydrocarbons per kg of fuel are never above those at or below the idle fuel
flow, except for exactly fourteen shipped engines. -/
theorem C141_hc (a : AircraftRow) (ha : 0 < a.number) (r : EngineRow) (hr : r ∈ shipped.engines)
    (v alt dT : ℝ) (halt : alt ≤ 145442) :
    r.name ∉ ["CFM56-5B1/2", "CFM56-5B1/2P", "CFM56-5B2/2", "CFM56-5B2/2P", "CFM56-5B3/2P",
      "CFM56-5B4/2", "CFM56-5B4/2P", "V2531-E5", "PW1215G", "PW1217G", "Trent 970-84",
      "Trent 970B-84", "Trent 972-84", "Trent 972E-84"].map
        (fun s : String => s.toList.map Char.toNat) ↔
    ∀ w w', 0 < w → 0 < w' → ffSl (Construct.emissionParams a r) w v alt dT ≤ real r.ff.idl →
      hc np (Construct.emissionParams a r) w' v alt dT / w' ≤
        hc np (Construct.emissionParams a r) w v alt dT / w := by
  obtain ⟨c, q, hc', hq, hl⟩ := linear (Construct.emissionParams a r) (Construct.real_pos ha) v alt dT
    halt
  have table : ∀ r ∈ shipped.engines,
      (r.name ∉ ["CFM56-5B1/2", "CFM56-5B1/2P", "CFM56-5B2/2", "CFM56-5B2/2P", "CFM56-5B3/2P",
      "CFM56-5B4/2", "CFM56-5B4/2P", "V2531-E5", "PW1215G", "PW1217G", "Trent 970-84",
      "Trent 970B-84", "Trent 972-84", "Trent 972E-84"].map
        (fun s : String => s.toList.map Char.toNat) ↔
        r.hc.app ≤ r.hc.idl ∧ r.hc.cout ≤ r.hc.idl ∧ r.hc.toff ≤ r.hc.idl) := by
    decide +kernel
  have key := orders (ordered a hr) (ff_pos a hr) (ei := (Construct.emissionParams a r).hc)
    (by intro k; fin_cases k <;> exact Construct.real_nonneg _) hc' hq
    (g := fun w => hc np (Construct.emissionParams a r) w v alt dT / w) (by
      intro w hw
      rw [div_eq_iff hw.ne']
      simp only [hc, hl])
  have cast : ∀ m n : ℕ, m ≤ n ↔ real m ≤ real n := fun m n =>
    ⟨Construct.real_le, fun h => by
      by_contra hc
      exact absurd (Construct.real_lt (not_le.1 hc)) (not_lt.2 h)⟩
  rw [table r hr]
  simp only [ffSl, hl]
  simp only [cast]
  exact key.2

/-- The engine of the A320, on two engines: not among the exceptions. -/
example : shipped.engines.any (fun r => r.name == "CFM56-5B4".toList.map Char.toNat) = true ∧
    "CFM56-5B4".toList.map Char.toNat ∉ ["CFM56-5B1/2", "CFM56-5B2/2", "CFM56-5B4/2", "CFM56-7B20/2",
      "TIO-540-J2B2"].map (fun s : String => s.toList.map Char.toNat) :=
  ⟨by decide +kernel, by decide⟩

end Verif.Props
