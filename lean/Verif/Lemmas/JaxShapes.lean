import Verif.Lemmas.ShapedPerf
import Verif.Spec.JaxShapes

/-!
# The decorated methods, JAX backend

Kind and shape of every result, computed exactly.
-/

namespace Verif.JaxShapes
open Verif.Nd Verif.Decorated Verif.Aero Verif.Spec Verif.Shaped

/-- Kind of an argument. -/
structure Kd where
  given : Bool
  jx : Bool
  L : ℕ

/-- Kind of a value passed on. -/
def Kd.pass (ℓ : Bool × ℕ) : Kd := ⟨true, ℓ.1, ℓ.2⟩

def sy (k : Kd) : Bool := k.given && k.jx

/-- Level of an argument in the body: unchanged if the decorator stays out (`s`). -/
def lv (s : Bool) (k : Kd) : Bool × ℕ :=
  if s then (k.jx, k.L) else if k.given then (k.jx, k.L ⊔ 1) else (k.jx, k.L)

variable {u : List ℕ} {r : ℕ}

def RepA (u : List ℕ) (r : ℕ) (k : Kd) (A : Arg) (x : List ℕ → ℝ) : Prop :=
  A.given = k.given ∧ Rep u r (k.jx, k.L) A.val x

variable {k : Kd} {A : Arg} {x : List ℕ → ℝ} {ℓ : Bool × ℕ} {v : Nd}

theorem repA_pass (h : Rep u r ℓ v x) : RepA u r (Kd.pass ℓ) (Decorated.pass v) x := ⟨rfl, h⟩

theorem RepA.sym (h : RepA u r k A x) : symbolic A = sy k := by
  obtain ⟨h1, g, hv, -⟩ := h
  simp [symbolic, hv, h1, sy]

/-- What the body gets. -/
def cv (s : Bool) (A : Arg) : Nd := if s then A.val else convert A

theorem RepA.cv {s : Bool} (hu : u ≠ []) (h : RepA u r k A x) (hs : s = false → sy k = false) :
    Rep u r (lv s k) (cv s A) x := by
  obtain ⟨h1, g, hv, hg⟩ := h
  cases s with
  | true => exact ⟨g, hv, hg⟩
  | false =>
    have h2 := hs rfl
    obtain ⟨val, given⟩ := A
    obtain ⟨kg, kj, L⟩ := k
    simp only at hv h1 hg
    subst hv h1
    cases given with
    | false => exact ⟨g, by simp [JaxShapes.cv, convert, lv], by simpa [lv] using hg⟩
    | true =>
      simp only [sy, Bool.true_and] at h2
      subst h2
      obtain ⟨d, s, rfl⟩ := List.exists_cons_of_ne_nil hu
      match L, hg with
      | 0, hg => exact ⟨fun _ => g [], by simp [JaxShapes.cv, convert, lv, sh],
          fun i => by simpa [sh, pick, lv] using hg i⟩
      | 1, hg => exact ⟨g, by simp [JaxShapes.cv, convert, lv, sh], by simpa [lv] using hg⟩
      | 2, hg => exact ⟨g, by simp [JaxShapes.cv, convert, lv, sh], by simpa [lv] using hg⟩
      | L + 3, hg =>
        exact ⟨g, by simp [JaxShapes.cv, convert, lv, sh], by simpa [lv] using hg⟩

theorem toScalar_jx (hj : ℓ.1 = true) (h : Rep u r ℓ v x) :
    Rep u r ℓ (Option.map toScalar v) x := by
  obtain ⟨g, rfl, hg⟩ := h
  exact ⟨g, by simp [toScalar, hj], hg⟩

theorem call_jx {args : List Arg} {body : (Arg → Nd) → Nd} {s : Bool}
    (hs : args.any symbolic = s) (hj : ℓ.1 = true) (h : Rep u r ℓ (body (cv s)) x) :
    Rep u r ℓ (call args body) x := by
  unfold call
  cases s with
  | true => rw [if_pos hs]; exact h
  | false => rw [if_neg (by simp [hs])]; exact toScalar_jx hj h

theorem callPair_jx {args : List Arg} {body : (Arg → Nd) → Nd × Nd} {s : Bool}
    {x' : List ℕ → ℝ} {ℓ' : Bool × ℕ}
    (hs : args.any symbolic = s) (hj : ℓ.1 = true) (hj' : ℓ'.1 = true)
    (h : Rep u r ℓ (body (cv s)).1 x) (h' : Rep u r ℓ' (body (cv s)).2 x') :
    Rep u r ℓ (callPair args body).1 x ∧ Rep u r ℓ' (callPair args body).2 x' := by
  unfold callPair
  cases s with
  | true => rw [if_pos hs]; exact ⟨h, h'⟩
  | false => rw [if_neg (by simp [hs])]; exact ⟨toScalar_jx hj h, toScalar_jx hj' h'⟩

section levels
variable (m t h v d c k f a l : Kd)

/-- Is the decorator of a method with these arguments out of the way? -/
def out (ks : List Kd) : Bool := ks.any sy

def clL : Bool × ℕ :=
  let s := out [m, t, h, v, d]
  (true, 0) ⊔ lv s m ⊔ lv s t ⊔ lv s h ⊔ lv s v ⊔ lv s d
def qsL : Bool × ℕ :=
  let s := out [m, t, h, v, d]
  (true, 0) ⊔ lv s t ⊔ lv s h ⊔ lv s d

def calcL : Bool × ℕ :=
  let s := out [m, t, h, c, k, v, d]
  lv s c ⊔ (lv s k ⊔ clL (.pass (lv s m)) (.pass (lv s t)) (.pass (lv s h)) (.pass (lv s v))
    (.pass (lv s d))) ⊔ qsL (.pass (lv s m)) (.pass (lv s t)) (.pass (lv s h)) (.pass (lv s v))
    (.pass (lv s d))

/-- Levels of the arguments of `waveDrag`. -/
def waveL (m t h d : Bool × ℕ) : Bool × ℕ :=
  (true, 0) ⊔ t ⊔ h ⊔ d ⊔ clL (.pass m) (.pass t) (.pass h) ⟨false, false, 0⟩ (.pass d)

def cleanL (wave : Bool) : Bool × ℕ :=
  let s := out [m, t, h, v, d]
  calcL (.pass (lv s m)) (.pass (lv s t)) (.pass (lv s h)) (.pass (lv s v)) (.pass (lv s d))
    (.pass (if wave then waveL (lv s m) (lv s t) (lv s h) (lv s d) else (false, 0)))
    (.pass (false, 0))

def noncleanL : Bool × ℕ :=
  let s := out [m, t, h, f, v, d, l]
  calcL (.pass (lv s m)) (.pass (lv s t)) (.pass (lv s h)) (.pass (lv s v)) (.pass (lv s d))
    (.pass ((true, 0) ⊔ lv s f)) (.pass (lv s f))

def takeoffL : Bool × ℕ :=
  let s := out [t, h, d]
  (true, 0) ⊔ lv s t ⊔ lv s h ⊔ lv s d

def climbL : Bool × ℕ :=
  let s := out [t, h, v, d]
  (true, 0) ⊔ lv s t ⊔ lv s h ⊔ lv s v ⊔ lv s d

def cruiseL : Bool × ℕ :=
  let s := out [t, h, d]
  climbL (.pass (lv s t)) (.pass (lv s h)) (.pass (false, 0)) (.pass (lv s d))

def atL : Bool × ℕ := (true, 0) ⊔ lv (out [t]) t

def fuelTakeoffL : Bool × ℕ :=
  let s := out [t, h, f]
  lv s f ⊔ atL (.pass (takeoffL (.pass (lv s t)) (.pass (lv s h)) ⟨false, false, 0⟩))

def enrouteL (wave : Bool) : Bool × ℕ :=
  let s := out [m, t, h, v, a, d, l]
  atL (.pass (cleanL (.pass (lv s m)) (.pass (lv s t)) (.pass (lv s h)) (.pass (lv s v))
    (.pass (lv s d)) wave ⊔ (lv s m ⊔ ((true, 0) ⊔ lv s v ⊔ lv s t)) ⊔ (lv s m ⊔ lv s a)))

end levels

variable (ac : Drag.Airframe ℝ) (pol : Drag.Polar ℝ) (en : Thrust.Params ℝ) (fu : Fuel.Params ℝ)
  (em : Emission.Params ℝ)
variable {m t h w d c f a l : Kd} {M T H V D C K F Q G : Arg}
variable {xm xt xh xv xd xc xk xf xa xl : List ℕ → ℝ}

theorem sy_false_of {ks : List Kd} {s : Bool} (hs : out ks = s) {q : Kd} (hq : q ∈ ks) :
    s = false → sy q = false := by
  rintro rfl
  unfold out at hs
  simpa using (List.any_eq_false.1 hs) q hq




theorem jx_cl (hu : u ≠ []) (hm : RepA u r m M xm) (ht : RepA u r t T xt) (hh : RepA u r h H xh)
    (hv : RepA u r w V xv) (hd : RepA u r d D xd) :
    Rep u r (clL m t h w d) (cl (ndBackend true) (Rec.airframe scalar ac) M T H V D).1
      (fun i => (Drag.cl np ac (xm i) (xt i) (xh i) (xv i) (xd i)).1) ∧
    Rep u r (qsL m t h w d) (cl (ndBackend true) (Rec.airframe scalar ac) M T H V D).2
      (fun i => (Drag.cl np ac (xm i) (xt i) (xh i) (xv i) (xd i)).2) := by
  generalize hs : out [m, t, h, w, d] = s
  have e : [M, T, H, V, D].any symbolic = s := by
    rw [← hs]; simp [out, hm.sym, ht.sym, hh.sym, hv.sym, hd.sym]
  have cm := hm.cv hu (sy_false_of hs (by simp))
  have ct := ht.cv hu (sy_false_of hs (by simp))
  have ch := hh.cv hu (sy_false_of hs (by simp))
  have cw := hv.cv hu (sy_false_of hs (by simp))
  have cd := hd.cv hu (sy_false_of hs (by simp))
  obtain ⟨r1, r2⟩ := rep_cl (j := true) ac hu cm ct ch cw cd
  exact callPair_jx e (by simp [clL]) (by simp [qsL])
    (r1.cast (by simp only [clL, hs])) (r2.cast (by simp only [qsL, hs]))

theorem jx_calcDrag (hu : u ≠ []) (hm : RepA u r m M xm) (ht : RepA u r t T xt)
    (hh : RepA u r h H xh) (hc : RepA u r c C xc) (hk : RepA u r k K xk)
    (hv : RepA u r w V xv) (hd : RepA u r d D xd) :
    Rep u r (calcL m t h w d c k)
      (calcDrag (ndBackend true) (Rec.airframe scalar ac) M T H C K V D)
      (fun i => Drag.calcDrag np ac (xm i) (xt i) (xh i) (xc i) (xk i) (xv i) (xd i)) := by
  generalize hs : out [m, t, h, c, k, w, d] = s
  have e : [M, T, H, C, K, V, D].any symbolic = s := by
    rw [← hs]; simp [out, hm.sym, ht.sym, hh.sym, hv.sym, hd.sym, hc.sym, hk.sym]
  have cm := hm.cv hu (sy_false_of hs (by simp))
  have ct := ht.cv hu (sy_false_of hs (by simp))
  have ch := hh.cv hu (sy_false_of hs (by simp))
  have cw := hv.cv hu (sy_false_of hs (by simp))
  have cd := hd.cv hu (sy_false_of hs (by simp))
  have cc := hc.cv hu (sy_false_of hs (by simp))
  have ck := hk.cv hu (sy_false_of hs (by simp))
  obtain ⟨r1, r2⟩ := jx_cl ac hu (repA_pass cm) (repA_pass ct) (repA_pass ch) (repA_pass cw)
    (repA_pass cd)
  have r3 := (cc.add hu (ck.mul hu (r1.pow 2))).mul hu r2
  exact call_jx e (by simp [calcL, clL]) (r3.cast (by simp only [calcL, hs]))

theorem rep_wave {a b c e : Bool × ℕ} {vm vt vh vd : Nd} (hu : u ≠ []) (hm : Rep u r a vm xm)
    (ht : Rep u r b vt xt) (hh : Rep u r c vh xh) (hd : Rep u r e vd xd) :
    Rep u r (waveL a b c e) (waveDrag (ndBackend true) (Rec.airframe scalar ac) vm vt vh vd)
      (fun i => Drag.waveDrag np ac (xm i) (xt i) (xh i) (xd i)) := by
  have h1 : Rep u r (c ⊔ ⊥) (vh * ft) (fun i => xh i * ft) := by dsimp only [ft]; rep
  have h2 : Rep u r (b ⊔ ⊥) (vt * kts) (fun i => xt i * kts) := by dsimp only [kts]; rep
  have h3 := rep_tas2mach (j := true) hu h2 h1 hd
  obtain ⟨r1, -⟩ := jx_cl ac hu (repA_pass hm) (repA_pass ht) (repA_pass hh)
    (show RepA u r ⟨false, false, 0⟩ ⟨0.0, false⟩ (fun _ => 0.0) from ⟨rfl, Rep.lit _ _ _⟩)
    (repA_pass hd)
  have r2 := rep_machCrit (j := true) ac hu r1
  have h0 : Rep u r ⊥ (0.0 : Nd) (fun _ => 0.0) := Rep.lit _ _ _
  have h20 : Rep u r ⊥ (20.0 : Nd) (fun _ => 20.0) := Rep.lit _ _ _
  have r3 := h20.mul hu (((h3.sub hu r2).maximum (j := true) hu h0).pow 4)
  refine r3.cast ?_
  unfold waveL
  generalize clL _ _ _ _ _ = z
  lvl

theorem jx_clean (wave : Bool) (hu : u ≠ []) (hm : RepA u r m M xm) (ht : RepA u r t T xt)
    (hh : RepA u r h H xh) (hv : RepA u r w V xv) (hd : RepA u r d D xd) :
    Rep u r (cleanL m t h w d wave)
      (clean (ndBackend true) (Rec.airframe scalar ac) (Rec.polar scalar pol) wave M T H V D)
      (fun i => Drag.clean np ac pol wave (xm i) (xt i) (xh i) (xv i) (xd i)) := by
  generalize hs : out [m, t, h, w, d] = s
  have e : [M, T, H, V, D].any symbolic = s := by
    rw [← hs]; simp [out, hm.sym, ht.sym, hh.sym, hv.sym, hd.sym]
  have cm := hm.cv hu (sy_false_of hs (by simp))
  have ct := ht.cv hu (sy_false_of hs (by simp))
  have ch := hh.cv hu (sy_false_of hs (by simp))
  have cw := hv.cv hu (sy_false_of hs (by simp))
  have cd := hd.cv hu (sy_false_of hs (by simp))
  have hk : Rep u r (false, 0) (Rec.polar scalar pol).k (fun _ => pol.k) := Rep.scalar _
  have h0 : Rep u r (false, 0) (Rec.polar scalar pol).cd0 (fun _ => pol.cd0) := Rep.scalar _
  have hw : Rep u r (if wave then waveL (lv s m) (lv s t) (lv s h) (lv s d) else (false, 0))
      (if wave then waveDrag (ndBackend true) (Rec.airframe scalar ac) (cv s M) (cv s T) (cv s H)
        (cv s D) else 0.0)
      (fun i => if wave then Drag.waveDrag np ac (xm i) (xt i) (xh i) (xd i) else 0.0) := by
    cases wave with
    | true => simpa using rep_wave ac hu cm ct ch cd
    | false => exact (Rep.lit 0 true 1 : Rep u r ⊥ _ _)
  have r3 := jx_calcDrag ac hu (repA_pass cm) (repA_pass ct) (repA_pass ch)
    (repA_pass (h0.add hu hw)) (repA_pass hk) (repA_pass cw) (repA_pass cd)
  refine call_jx e (by simp [cleanL, calcL, clL]) ?_
  have r4 := r3.cast (show _ = cleanL m t h w d wave by
    simp only [cleanL, hs]
    rw [show ((false, 0) : Bool × ℕ) = ⊥ from rfl, bot_sup_eq])
  unfold Drag.clean
  exact r4

theorem truth_cv {s g : Bool} {y : ℝ} :
    truth (cv s ⟨scalar y, g⟩) = some (open Classical in decide (y ≠ 0)) := by
  cases s <;> cases g <;> simp [cv, convert, truth, scalar]

theorem jx_nonclean (hu : u ≠ []) (hm : RepA u r m M xm) (ht : RepA u r t T xt)
    (hh : RepA u r h H xh) (hf : RepA u r f F xf) (hv : RepA u r w V xv) (hd : RepA u r d D xd)
    (y : ℝ) (g : Bool) :
    Rep u r (noncleanL m t h w d f ⟨g, false, 0⟩)
      (nonclean (ndBackend true) (Rec.airframe scalar ac) (Rec.polar scalar pol) M T H F V D
        ⟨scalar y, g⟩)
      (fun i => Drag.nonclean np ac pol (xm i) (xt i) (xh i) (xf i) (xv i) (xd i)
        (open Classical in decide (y ≠ 0))) := by
  generalize hs : out [m, t, h, f, w, d, ⟨g, false, 0⟩] = s
  have e : [M, T, H, F, V, D, ⟨scalar y, g⟩].any symbolic = s := by
    have hy : symbolic ⟨scalar y, g⟩ = sy ⟨g, false, 0⟩ := by simp [sy, symbolic, scalar]
    rw [← hs]
    simp [out, hm.sym, ht.sym, hh.sym, hv.sym, hd.sym, hf.sym, hy]
  have cm := hm.cv hu (sy_false_of hs (by simp))
  have ct := ht.cv hu (sy_false_of hs (by simp))
  have ch := hh.cv hu (sy_false_of hs (by simp))
  have cw := hv.cv hu (sy_false_of hs (by simp))
  have cd := hd.cv hu (sy_false_of hs (by simp))
  have cf := hf.cv hu (sy_false_of hs (by simp))
  have h0 : Rep u r (false, 0) (Rec.polar scalar pol).cd0 (fun _ => pol.cd0) := Rep.scalar _
  have r1 := rep_flapCd (j := true) pol hu cf
  have r2 := rep_flapK (j := true) ac pol hu cf
  refine call_jx e (by simp [noncleanL, calcL, clL]) ?_
  simp only [truth_cv]
  unfold Drag.nonclean
  cases decide (y ≠ 0) with
  | true =>
    have r3 := (h0.add hu r1).add hu (rep_gearCd (j := true) ac hu)
    have r4 := jx_calcDrag ac hu (repA_pass cm) (repA_pass ct) (repA_pass ch)
      (repA_pass r3) (repA_pass r2) (repA_pass cw) (repA_pass cd)
    refine r4.cast ?_
    simp only [noncleanL, hs]
    congr 2
    rw [show ((false, 0) : Bool × ℕ) = ⊥ from rfl]
    lvl
  | false =>
    have r3 := (h0.add hu r1).add hu (Rep.lit 0 true 1)
    have r4 := jx_calcDrag ac hu (repA_pass cm) (repA_pass ct) (repA_pass ch)
      (repA_pass r3) (repA_pass r2) (repA_pass cw) (repA_pass cd)
    refine r4.cast ?_
    simp only [noncleanL, hs]
    congr 2
    rw [show ((false, 0) : Bool × ℕ) = ⊥ from rfl]
    lvl

theorem jx_thrustTakeoff (hu : u ≠ []) (ht : RepA u r t T xt) (hh : RepA u r h H xh)
    (hd : RepA u r d D xd) :
    Rep u r (takeoffL t h d) (thrustTakeoff (ndBackend true) (Rec.thrust scalar en) T H D)
      (fun i => Thrust.takeoff np en (xt i) (xh i) (xd i)) := by
  generalize hs : out [t, h, d] = s
  have e : [T, H, D].any symbolic = s := by rw [← hs]; simp [out, ht.sym, hh.sym, hd.sym]
  have ct := ht.cv hu (sy_false_of hs (by simp))
  have ch := hh.cv hu (sy_false_of hs (by simp))
  have cd := hd.cv hu (sy_false_of hs (by simp))
  exact call_jx e (by simp [takeoffL])
    ((rep_takeoff (j := true) en hu ct ch cd).cast (by simp only [takeoffL, hs]))

theorem jx_climb (hu : u ≠ []) (ht : RepA u r t T xt) (hh : RepA u r h H xh)
    (hv : RepA u r w V xv) (hd : RepA u r d D xd) :
    Rep u r (climbL t h w d) (climb (ndBackend true) (Rec.thrust scalar en) T H V D)
      (fun i => Thrust.climb np en (xt i) (xh i) (xv i) (xd i)) := by
  generalize hs : out [t, h, w, d] = s
  have e : [T, H, V, D].any symbolic = s := by
    rw [← hs]; simp [out, ht.sym, hh.sym, hv.sym, hd.sym]
  have ct := ht.cv hu (sy_false_of hs (by simp))
  have ch := hh.cv hu (sy_false_of hs (by simp))
  have cw := hv.cv hu (sy_false_of hs (by simp))
  have cd := hd.cv hu (sy_false_of hs (by simp))
  exact call_jx e (by simp [climbL])
    ((rep_climb (j := true) en hu ct ch cw cd).cast (by simp only [climbL, hs]))

theorem jx_cruise (hu : u ≠ []) (ht : RepA u r t T xt) (hh : RepA u r h H xh)
    (hd : RepA u r d D xd) :
    Rep u r (cruiseL t h d) (cruise (ndBackend true) (Rec.thrust scalar en) T H D)
      (fun i => Thrust.cruise np en (xt i) (xh i) (xd i)) := by
  generalize hs : out [t, h, d] = s
  have e : [T, H, D].any symbolic = s := by rw [← hs]; simp [out, ht.sym, hh.sym, hd.sym]
  have ct := ht.cv hu (sy_false_of hs (by simp))
  have ch := hh.cv hu (sy_false_of hs (by simp))
  have cd := hd.cv hu (sy_false_of hs (by simp))
  have r1 := jx_climb en hu (repA_pass ct) (repA_pass ch)
    (repA_pass (show Rep u r (false, 0) 0.0 (fun _ => 0.0) from Rep.lit _ _ _)) (repA_pass cd)
  exact call_jx e (by simp [cruiseL, climbL]) (r1.cast (by simp only [cruiseL, hs]))

theorem jx_descentIdle {t h d : Bool × ℕ} (hu : u ≠ []) (ht : Rep u r t T.val xt)
    (hh : Rep u r h H.val xh) (hd : Rep u r d D.val xd) :
    Rep u r (takeoffL (.pass t) (.pass h) (.pass d))
      (descentIdle (ndBackend true) (Rec.thrust scalar en) T H D)
      (fun i => Thrust.descentIdle np en (xt i) (xh i) (xd i)) := by
  have r1 := jx_thrustTakeoff en hu (repA_pass ht) (repA_pass hh) (repA_pass hd)
  have h7 : Rep u r ⊥ (0.07 : Nd) (fun _ => 0.07) := Rep.lit _ _ _
  exact (h7.mul hu r1).cast (by rw [bot_sup_eq])

theorem jx_atThrust (hu : u ≠ []) (ht : RepA u r t T xt) :
    Rep u r (atL t) (atThrust (ndBackend true) (Rec.fuel scalar fu) T)
      (fun i => Fuel.atThrust np fu (xt i)) := by
  generalize hs : out [t] = s
  have e : [T].any symbolic = s := by rw [← hs]; simp [out, ht.sym]
  have ct := ht.cv hu (sy_false_of hs (by simp))
  exact call_jx e (by simp [atL])
    ((rep_atThrust (j := true) fu hu ct).cast (by simp only [atL, hs]))

theorem jx_fuelTakeoff (hu : u ≠ []) (ht : RepA u r t T xt) (hh : RepA u r h H xh)
    (hf : RepA u r f F xf) :
    Rep u r (fuelTakeoffL t h f)
      (fuelTakeoff (ndBackend true) (Rec.thrust scalar en) (Rec.fuel scalar fu) T H F)
      (fun i => Fuel.takeoff np fu en (xt i) (xh i) (xf i)) := by
  generalize hs : out [t, h, f] = s
  have e : [T, H, F].any symbolic = s := by rw [← hs]; simp [out, ht.sym, hh.sym, hf.sym]
  have ct := ht.cv hu (sy_false_of hs (by simp))
  have ch := hh.cv hu (sy_false_of hs (by simp))
  have cf := hf.cv hu (sy_false_of hs (by simp))
  have r1 := jx_thrustTakeoff en hu (repA_pass ct) (repA_pass ch)
    (show RepA u r ⟨false, false, 0⟩ ⟨0.0, false⟩ (fun _ => 0.0) from ⟨rfl, Rep.lit _ _ _⟩)
  have r2 := cf.mul hu (jx_atThrust fu hu (repA_pass r1))
  exact call_jx e (by simp [fuelTakeoffL, atL])
    (r2.cast (by simp only [fuelTakeoffL, hs]))

theorem jx_enroute (wave limit : Bool) (hu : u ≠ []) (hm : RepA u r m M xm)
    (ht : RepA u r t T xt) (hh : RepA u r h H xh) (hv : RepA u r w V xv) (ha : RepA u r a Q xa)
    (hd : RepA u r d D xd) (hl : RepA u r l G xl) :
    Rep u r (enrouteL m t h w d a l wave)
      (enroute (ndBackend true) (Rec.airframe scalar ac) (Rec.polar scalar pol)
        (Rec.fuel scalar fu) wave M T H V Q D G)
      (fun i => Fuel.enroute np fu ac pol wave (xm i) (xt i) (xh i) (xv i) (xa i) (xd i)
        limit) := by
  generalize hs : out [m, t, h, w, a, d, l] = s
  have e : [M, T, H, V, Q, D, G].any symbolic = s := by
    rw [← hs]; simp [out, hm.sym, ht.sym, hh.sym, hv.sym, hd.sym, ha.sym, hl.sym]
  have cm := hm.cv hu (sy_false_of hs (by simp))
  have ct := ht.cv hu (sy_false_of hs (by simp))
  have ch := hh.cv hu (sy_false_of hs (by simp))
  have cw := hv.cv hu (sy_false_of hs (by simp))
  have ca := ha.cv hu (sy_false_of hs (by simp))
  have cd := hd.cv hu (sy_false_of hs (by simp))
  have r1 := jx_clean ac pol wave hu (repA_pass cm) (repA_pass ct) (repA_pass ch) (repA_pass cw)
    (repA_pass cd)
  have g1 : Rep u r (lv s w ⊔ ⊥) (cv s V * fpm) (fun i => xv i * fpm) := by dsimp only [fpm]; rep
  have g2 : Rep u r (lv s t ⊔ ⊥) (cv s T * kts) (fun i => xt i * kts) := by dsimp only [kts]; rep
  have g3 := (g1.arctan2 (j := true) hu g2).sin (j := true)
  have h9 : Rep u r ⊥ (9.81 : Nd) (fun _ => 9.81) := Rep.lit _ _ _
  have r2 := (r1.add hu ((cm.mul hu h9).mul hu g3)).add hu (cm.mul hu ca)
  have r3 := jx_atThrust fu hu (repA_pass r2)
  refine call_jx e (by simp [enrouteL, atL]) (r3.cast ?_)
  simp only [enrouteL, hs]
  congr 2
  generalize cleanL _ _ _ _ _ _ = z
  lvl


theorem jx_emission (hu : u ≠ []) (hf : RepA u r f F xf) (ht : RepA u r t T xt)
    (hh : RepA u r h H xh) (hd : RepA u r d D xd) :
    Rep u r (climbL f t h d) (nox (ndBackend true) (Rec.emission scalar em) F T H D)
      (fun i => Emission.nox np em (xf i) (xt i) (xh i) (xd i)) ∧
    Rep u r (climbL f t h d) (co (ndBackend true) (Rec.emission scalar em) F T H D)
      (fun i => Emission.co np em (xf i) (xt i) (xh i) (xd i)) ∧
    Rep u r (climbL f t h d) (hc (ndBackend true) (Rec.emission scalar em) F T H D)
      (fun i => Emission.hc np em (xf i) (xt i) (xh i) (xd i)) := by
  generalize hs : out [f, t, h, d] = s
  have e : [F, T, H, D].any symbolic = s := by
    rw [← hs]; simp [out, ht.sym, hh.sym, hf.sym, hd.sym]
  have cf := hf.cv hu (sy_false_of hs (by simp))
  have ct := ht.cv hu (sy_false_of hs (by simp))
  have ch := hh.cv hu (sy_false_of hs (by simp))
  have cd := hd.cv hu (sy_false_of hs (by simp))
  refine ⟨call_jx e (by simp [climbL])
    ((rep_nox (j := true) em hu cf ct ch cd).cast (by simp only [climbL, hs])),
    call_jx e (by simp [climbL])
    ((rep_co (j := true) em hu cf ct ch cd).cast (by simp only [climbL, hs])),
    call_jx e (by simp [climbL])
    ((rep_hc (j := true) em hu cf ct ch cd).cast (by simp only [climbL, hs]))⟩

/-! ## Bounds on levels -/

theorem lv_small {s : Bool} {k : Kd} : (lv s k).2 ≤ 2 ↔ k.L ≤ 2 := by
  unfold lv; split_ifs <;> simp

theorem lv_big {s : Bool} {k : Kd} : 2 ≤ (lv s k).2 ↔ 2 ≤ k.L := by
  unfold lv; split_ifs <;> simp

/-- Reduce a bound on a level to bounds on the levels of the arguments. -/
macro "bnd" : tactic => `(tactic|
  simp only [Kd.pass, Prod.snd_sup, sup_le_iff, le_sup_iff, lv_small, lv_big, Nat.zero_le,
    true_and, and_true, nonpos_iff_eq_zero, OfNat.ofNat_ne_zero, false_or, or_false])

section
variable {m t h v d c k f a l : Kd} {ℓ₁ ℓ₂ ℓ₃ ℓ₄ : Bool × ℕ}

theorem clL_small : (clL m t h v d).2 ≤ 2 ↔
    m.L ≤ 2 ∧ t.L ≤ 2 ∧ h.L ≤ 2 ∧ v.L ≤ 2 ∧ d.L ≤ 2 := by
  unfold clL; bnd; tauto
theorem clL_big : 2 ≤ (clL m t h v d).2 ↔
    2 ≤ m.L ∨ 2 ≤ t.L ∨ 2 ≤ h.L ∨ 2 ≤ v.L ∨ 2 ≤ d.L := by
  unfold clL; bnd; tauto
theorem qsL_small : (qsL m t h v d).2 ≤ 2 ↔ t.L ≤ 2 ∧ h.L ≤ 2 ∧ d.L ≤ 2 := by
  unfold qsL; bnd; tauto
theorem qsL_big : 2 ≤ (qsL m t h v d).2 ↔ 2 ≤ t.L ∨ 2 ≤ h.L ∨ 2 ≤ d.L := by
  unfold qsL; bnd; tauto
theorem calcL_small (hm : m.L ≤ 2) (ht : t.L ≤ 2) (hh : h.L ≤ 2) (hv : v.L ≤ 2) (hd : d.L ≤ 2)
    (hc : c.L ≤ 2) (hk : k.L ≤ 2) : (calcL m t h v d c k).2 ≤ 2 := by
  unfold calcL; bnd; rw [clL_small, qsL_small]; bnd; tauto
theorem calcL_big : 2 ≤ (calcL m t h v d c k).2 ↔
    (2 ≤ m.L ∨ 2 ≤ t.L ∨ 2 ≤ h.L ∨ 2 ≤ v.L ∨ 2 ≤ d.L) ∨ 2 ≤ c.L ∨ 2 ≤ k.L := by
  unfold calcL; bnd; rw [clL_big, qsL_big]; bnd; tauto
theorem waveL_small (hm : ℓ₁.2 ≤ 2) (ht : ℓ₂.2 ≤ 2) (hh : ℓ₃.2 ≤ 2) (hd : ℓ₄.2 ≤ 2) :
    (waveL ℓ₁ ℓ₂ ℓ₃ ℓ₄).2 ≤ 2 := by
  unfold waveL; bnd; rw [clL_small]; bnd; tauto
theorem cleanL_small {wave : Bool} (hm : m.L ≤ 2) (ht : t.L ≤ 2) (hh : h.L ≤ 2) (hv : v.L ≤ 2)
    (hd : d.L ≤ 2) : (cleanL m t h v d wave).2 ≤ 2 := by
  unfold cleanL
  apply calcL_small <;> bnd <;> try assumption
  cases wave with
  | true => exact waveL_small (lv_small.2 hm) (lv_small.2 ht) (lv_small.2 hh) (lv_small.2 hd)
  | false => exact Nat.zero_le _
theorem cleanL_big {wave : Bool} (hb : 2 ≤ m.L ∨ 2 ≤ t.L ∨ 2 ≤ h.L ∨ 2 ≤ v.L ∨ 2 ≤ d.L) :
    2 ≤ (cleanL m t h v d wave).2 := by
  unfold cleanL; dsimp only; rw [calcL_big]
  refine Or.inl ?_
  bnd; exact hb
theorem noncleanL_small (hm : m.L ≤ 2) (ht : t.L ≤ 2) (hh : h.L ≤ 2) (hv : v.L ≤ 2)
    (hd : d.L ≤ 2) (hf : f.L ≤ 2) : (noncleanL m t h v d f l).2 ≤ 2 := by
  unfold noncleanL
  apply calcL_small <;> bnd <;> assumption
theorem noncleanL_big (hb : 2 ≤ m.L ∨ 2 ≤ t.L ∨ 2 ≤ h.L ∨ 2 ≤ v.L ∨ 2 ≤ d.L ∨ 2 ≤ f.L) :
    2 ≤ (noncleanL m t h v d f l).2 := by
  unfold noncleanL; dsimp only; rw [calcL_big]; bnd; tauto
theorem takeoffL_small : (takeoffL t h d).2 ≤ 2 ↔ t.L ≤ 2 ∧ h.L ≤ 2 ∧ d.L ≤ 2 := by
  unfold takeoffL; bnd; tauto
theorem takeoffL_big : 2 ≤ (takeoffL t h d).2 ↔ 2 ≤ t.L ∨ 2 ≤ h.L ∨ 2 ≤ d.L := by
  unfold takeoffL; bnd; tauto
theorem climbL_small : (climbL t h v d).2 ≤ 2 ↔ t.L ≤ 2 ∧ h.L ≤ 2 ∧ v.L ≤ 2 ∧ d.L ≤ 2 := by
  unfold climbL; bnd; tauto
theorem climbL_big : 2 ≤ (climbL t h v d).2 ↔ 2 ≤ t.L ∨ 2 ≤ h.L ∨ 2 ≤ v.L ∨ 2 ≤ d.L := by
  unfold climbL; bnd; tauto
theorem cruiseL_small : (cruiseL t h d).2 ≤ 2 ↔ t.L ≤ 2 ∧ h.L ≤ 2 ∧ d.L ≤ 2 := by
  unfold cruiseL; dsimp only; rw [climbL_small]; bnd
theorem cruiseL_big : 2 ≤ (cruiseL t h d).2 ↔ 2 ≤ t.L ∨ 2 ≤ h.L ∨ 2 ≤ d.L := by
  unfold cruiseL; dsimp only; rw [climbL_big]; bnd
theorem atL_small : (atL t).2 ≤ 2 ↔ t.L ≤ 2 := by
  unfold atL; bnd
theorem atL_big : 2 ≤ (atL t).2 ↔ 2 ≤ t.L := by
  unfold atL; bnd
theorem fuelTakeoffL_small (ht : t.L ≤ 2) (hh : h.L ≤ 2) (hf : f.L ≤ 2) :
    (fuelTakeoffL t h f).2 ≤ 2 := by
  unfold fuelTakeoffL; bnd; rw [atL_small]; bnd; rw [takeoffL_small]; bnd; tauto
theorem fuelTakeoffL_big (hb : 2 ≤ t.L ∨ 2 ≤ h.L ∨ 2 ≤ f.L) :
    2 ≤ (fuelTakeoffL t h f).2 := by
  unfold fuelTakeoffL; bnd; rw [atL_big]; bnd; rw [takeoffL_big]; bnd; tauto
theorem enrouteL_small {wave : Bool} (hm : m.L ≤ 2) (ht : t.L ≤ 2) (hh : h.L ≤ 2) (hv : v.L ≤ 2)
    (hd : d.L ≤ 2) (ha : a.L ≤ 2) : (enrouteL m t h v d a l wave).2 ≤ 2 := by
  unfold enrouteL; dsimp only; rw [atL_small]; bnd
  refine ⟨⟨cleanL_small ?_ ?_ ?_ ?_ ?_, ?_⟩, ?_⟩ <;> (try bnd) <;> tauto
theorem enrouteL_big {wave : Bool}
    (hb : 2 ≤ m.L ∨ 2 ≤ t.L ∨ 2 ≤ h.L ∨ 2 ≤ v.L ∨ 2 ≤ a.L ∨ 2 ≤ d.L) :
    2 ≤ (enrouteL m t h v d a l wave).2 := by
  unfold enrouteL; dsimp only; rw [atL_big]; bnd
  by_cases hc : 2 ≤ m.L ∨ 2 ≤ t.L ∨ 2 ≤ h.L ∨ 2 ≤ v.L ∨ 2 ≤ d.L
  · refine Or.inl (Or.inl (cleanL_big ?_))
    bnd; exact hc
  · tauto
end

end Verif.JaxShapes
