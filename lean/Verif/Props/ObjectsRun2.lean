import Verif.Props.ObjectsRun
import Verif.QFloat
import Verif.XReal
import Verif.Binary
/-!
# C109: rain, DSD, liquid/ice mass, trapezoids, fundamentals
-/
namespace Csu.Heap
open Csu PyFloat Common
variable {α : Type} [PyFloat α]

theorem calcRainNexradH_run {h : Heap α} {dz : Ref} {dt : DType} {d : List α} (t a b : α) (hd : h[dz]? = some (.flt dt d)) :
    Runs (calcRainNexradH dz t a b) h h.length (h ++ [.flt .float (calcRainNexrad d t a b)]) := by
  refine Post.elim (start ?_)
  unfold calcRainNexradH
  run
  refine Post.pure ⟨rfl, ?_⟩
  subst_vars
  rfl

/-- the intermediate array of `calc_zdp` -/
def zdpTmp (zh zv : List α) : List α :=
  maskSet ((List.zipWith (· - ·) zh zv).map (· <=. 0)) 0.000000000001 (List.zipWith (· - ·) zh zv)

theorem calcZdpH_run (h : Heap α) (zh zv : List α) :
    Runs (calcZdpH zh zv) h (h.length + 1) (h ++ [.flt .float (zdpTmp zh zv), .flt .float (LiquidIce.calcZdp zh zv)]) := by
  refine Post.elim (start ?_)
  unfold calcZdpH
  run
  refine post_newF' ?_
  intro _ _
  refine ⟨rfl, ?_⟩
  subst_vars
  rfl

/-- `calc_zdp` in a program: two new arrays, the second is the result -/
theorem post_zdp {γ : Type} {h l : Heap α} {zh zv : List α} {f : Ref → HM α γ} {Q : Except PyErr γ → Heap α → Prop}
    (b : ∀ t ys, ys = LiquidIce.calcZdp zh zv → Post (f (h.length + (l.length + 1))) (h ++ (l ++ [.flt .float t, .flt .float ys])) Q) :
    Post (calcZdpH zh zv >>= f) (h ++ l) Q := by
  refine Post.bind (calcZdpH_run _ _ _) ?_
  have := b (zdpTmp zh zv) _ rfl
  rw [List.append_assoc]
  rwa [show (h ++ l).length + 1 = h.length + (l.length + 1) by simp; omega]

theorem getDeltaThreshH_run {h : Heap α} {z : Ref} {dt : DType} {zs : List α} (f : α) (hz : h[z]? = some (.flt dt zs)) :
    Runs (getDeltaThreshH z f) h h.length (h ++ [.flt .float (LiquidIce.getDeltaThresh zs f)]) := by
  refine Post.elim (start ?_)
  unfold getDeltaThreshH
  run
  refine Post.pure ⟨rfl, ?_⟩
  subst_vars
  rfl

/-- **C109**, `calc_blended_rain`: the rain rates, the methods and, at S band, Zdp and ice fraction are the value model's -/
theorem C109_blended (P : Rain.Params α) (band : String) (dz zdr kdp : Ref) (h : Heap α) (dt dt' dt'' : DType) (d z k : List α)
    (hd : h[dz]? = some (.flt dt d)) (hz : h[zdr]? = some (.flt dt' z)) (hk : h[kdp]? = some (.flt dt'' k)) :
    match Rain.blendedArr P band dt d z k with
    | .error e => (blendedH P band dz zdr kdp h).1 = .error e
    | .ok o => ∃ r m q h', blendedH P band dz zdr kdp h = (.ok (r, m, q), h') ∧
        h'[r]? = some (.flt dt o.rain) ∧ h'[m]? = some (.int o.meth) ∧
        match o.ice, q with
        | none, none => True
        | some (zdp, fi), some (a, b) => h'[a]? = some (.flt .float zdp) ∧ h'[b]? = some (.flt .float fi)
        | _, _ => False := by
  by_cases hS : band = "S"
  · rcases er : Rain.rainLine P with e | ⟨fa, fb⟩
    · have hv : Rain.blendedArr P band dt d z k = .error e := by
        unfold Rain.blendedArr
        simp only [hS, if_true, er]
        rfl
      rw [hv]
      have key : Post (blendedH P band dz zdr kdp) h (fun x _ => x = .error e) := by
        refine start ?_
        unfold blendedH
        simp only [hS, if_true]
        run
        refine post_callF (calcRainNexradH_run _ _ _ (get_old hd)) ?_
        intro _ _
        simp only [List.length_cons, List.length_nil, List.nil_append, List.cons_append, Nat.reduceAdd]
        run
        refine post_zdp ?_
        intro _ _ _
        simp only [List.length_cons, List.length_nil, List.nil_append, List.cons_append, Nat.reduceAdd]
        run
        exact Post.lift_error er rfl
      exact key
    · have key : Post (blendedH P band dz zdr kdp) h (fun x g => ∃ o v zdp fi a b, x = .ok o ∧ Rain.blendedArr P band dt d z k = .ok v ∧
          g[o.1]? = some (.flt dt v.rain) ∧ g[o.2.1]? = some (.int v.meth) ∧ v.ice = some (zdp, fi) ∧ o.2.2 = some (a, b) ∧
          g[a]? = some (.flt .float zdp) ∧ g[b]? = some (.flt .float fi)) := by
        refine start ?_
        unfold blendedH Rain.blendedArr
        simp only [hS, if_true, er]
        run
        refine post_callF (calcRainNexradH_run _ _ _ (get_old hd)) ?_
        intro _ _
        simp only [List.length_cons, List.length_nil, List.nil_append, List.cons_append, Nat.reduceAdd]
        run
        refine post_zdp ?_
        intro _ _ _
        simp only [List.length_cons, List.length_nil, List.nil_append, List.cons_append, Nat.reduceAdd]
        run
        refine Post.bind (runs_lift rfl) ?_
        dsimp only
        run
        refine post_callF (calcRainNexradH_run _ _ _ (get_new rfl)) ?_
        intro _ _
        simp only [List.length_cons, List.length_nil, List.nil_append, List.cons_append, Nat.reduceAdd]
        run
        refine Post.pure ⟨_, _, _, _, _, _, rfl, rfl, ?_, ?_, rfl, rfl, ?_, ?_⟩
        · rw [get_new (k := 0) rfl]
          subst_vars
          rfl
        · rw [get_new (k := 1) rfl]
          subst_vars
          rfl
        · rw [get_new (k := 4) rfl]
          subst_vars
          rfl
        · rw [get_new (k := 6) rfl]
          subst_vars
          rfl
      obtain ⟨_, h', run, ⟨r, m, q⟩, v, zdp, fi, a, b, rfl, hv, h1, h2, h3, h4, h5, h6⟩ := key.dest
      rw [hv]
      refine ⟨r, m, q, h', run, h1, h2, ?_⟩
      rw [h3, show q = some (a, b) from h4]
      exact ⟨h5, h6⟩
  · have key : Post (blendedH P band dz zdr kdp) h (fun x g => ∃ o v, x = .ok o ∧ Rain.blendedArr P band dt d z k = .ok v ∧
        g[o.1]? = some (.flt dt v.rain) ∧ g[o.2.1]? = some (.int v.meth) ∧ v.ice = none ∧ o.2.2 = none) := by
      refine start ?_
      unfold blendedH Rain.blendedArr
      simp only [if_neg hS]
      run
      refine post_callF (calcRainNexradH_run _ _ _ (get_old hd)) ?_
      intro _ _
      simp only [List.length_cons, List.length_nil, List.nil_append, List.cons_append, Nat.reduceAdd]
      run
      refine Post.pure ⟨_, _, rfl, rfl, ?_, ?_, rfl, rfl⟩
      · rw [get_new (k := 0) rfl]
        subst_vars
        rfl
      · rw [get_new (k := 1) rfl]
        subst_vars
        rfl
    obtain ⟨_, h', run, ⟨r, m, q⟩, v, rfl, hv, h1, h2, h3, h4⟩ := key.dest
    rw [hv]
    refine ⟨r, m, q, h', run, h1, h2, ?_⟩
    rw [h3, show q = none from h4]
    trivial

/-- **C109**, `csu_hidro_rain` -/
theorem C109_hidro (P : Rain.Params α) (band : String) (dz zdr kdp fhc : Ref) (h : Heap α) (dt dt' dt'' : DType) (d z k : List α)
    (f : List Int) (hd : h[dz]? = some (.flt dt d)) (hz : h[zdr]? = some (.flt dt' z)) (hk : h[kdp]? = some (.flt dt'' k))
    (hf : h[fhc]? = some (.int f)) :
    ∃ r m h', hidroH P band dz zdr kdp fhc h = (.ok (r, m), h') ∧
      h'[r]? = some (.flt dt (Rain.hidroArr P band dt d z k f).1) ∧ h'[m]? = some (.int (Rain.hidroArr P band dt d z k f).2) := by
  have key : Post (hidroH P band dz zdr kdp fhc) h (fun x g => ∃ o, x = .ok o ∧ g[o.1]? = some (.flt dt (Rain.hidroArr P band dt d z k f).1) ∧
      g[o.2]? = some (.int (Rain.hidroArr P band dt d z k f).2)) := by
    refine start ?_
    unfold hidroH Rain.hidroArr
    run
    refine post_callF (calcRainNexradH_run _ _ _ (get_old hd)) ?_
    intro _ _
    simp only [List.length_cons, List.length_nil, List.nil_append, List.cons_append, Nat.reduceAdd]
    run
    split
    · run
      refine Post.pure ⟨_, rfl, ?_, ?_⟩
      · rw [get_new (k := 0) rfl]
        subst_vars
        rfl
      · rw [get_new (k := 1) rfl]
        subst_vars
        rfl
    · run
      refine Post.pure ⟨_, rfl, ?_, ?_⟩
      · rw [get_new (k := 0) rfl]
        subst_vars
        rfl
      · rw [get_new (k := 1) rfl]
        subst_vars
        rfl
  obtain ⟨_, h', run, ⟨r, m⟩, rfl, q⟩ := key.dest
  exact ⟨r, m, h', run, q⟩

/-- an optional array argument and its contents -/
def HoldsOpt (h : Heap α) : Option Ref → Option (List Int) → Prop
  | none, none => True
  | some r, some v => h[r]? = some (.int v)
  | _, _ => False

/-- the contents of rain and method after csu_blended_rain_tropical.py:192-204 -/
def tropZV (dt : DType) (cond4 : List Bool) (rConv rStrat rAll : List α) (r : List α) (m : List Int) : Option (List Int) → List α × List Int
  | none => (maskCopy cond4 (rAll.map (store dt)) r, maskSet cond4 4 m)
  | some cs =>
    (maskCopy (logicalAnd cond4 (cs.map (· == 3))) (rAll.map (store dt))
      (maskCopy (logicalAnd cond4 (cs.map (· == 1))) (rStrat.map (store dt))
        (maskCopy (logicalAnd cond4 (cs.map (· == 2))) (rConv.map (store dt)) r)),
     maskSet (logicalAnd cond4 (cs.map (· == 3))) 4 (maskSet (logicalAnd cond4 (cs.map (· == 1))) 6
      (maskSet (logicalAnd cond4 (cs.map (· == 2))) 5 m)))

/-- the contents of rain and method after csu_blended_rain_tropical.py:215-221 -/
def tropFhcV (dt : DType) (condKdpz : List Bool) (rKdp : List α) (r : List α) (m : List Int) : Option (List Int) → List α × List Int
  | none => (r, m)
  | some f =>
    let condIce := logicalAnd (f.map (fun f => decide (f > 2))) (f.map (fun f => decide (f < 10)))
    (maskCopy (logicalAnd (f.map (· == 9)) condKdpz) (rKdp.map (store dt)) (maskSet condIce 0 r), maskSet condIce 2 (maskSet condIce (-1) m))

theorem post_tropZ {γ : Type} {h : Heap α} {dt : DType} {c4 : List Bool} {x y z r0 : List α} {m0 : List Int} {f : Unit → HM α γ}
    {Q : Except PyErr γ → Heap α → Prop} {cs : Option Ref} {c : Option (List Int)} (hc : HoldsOpt h cs c)
    (q : ∀ r m, r = (tropZV dt c4 x y z r0 m0 c).1 → m = (tropZV dt c4 x y z r0 m0 c).2 → Post (f ()) (h ++ [.flt dt r, .int m]) Q) :
    Post (tropZH dt c4 x y z (h.length + 0) (h.length + 1) cs >>= f) (h ++ [.flt dt r0, .int m0]) Q := by
  have run : Runs (tropZH dt c4 x y z (h.length + 0) (h.length + 1) cs) (h ++ [.flt dt r0, .int m0]) ()
      (h ++ [.flt dt (tropZV dt c4 x y z r0 m0 c).1, .int (tropZV dt c4 x y z r0 m0 c).2]) := by
    refine Post.elim ?_
    cases cs with
    | none =>
      cases c with
      | some c => exact hc.elim
      | none =>
        unfold tropZH
        dsimp only
        run
        refine post_updF' _ _ rfl ?_
        intro _ _
        refine ⟨rfl, ?_⟩
        subst_vars
        rfl
    | some cs =>
      cases c with
      | none => exact hc.elim
      | some c =>
        have hc' : h[cs]? = some (.int c) := hc
        unfold tropZH
        dsimp only
        run
        refine post_updF' _ _ rfl ?_
        intro _ _
        refine ⟨rfl, ?_⟩
        subst_vars
        rfl
  exact Post.bind run (q _ _ rfl rfl)

theorem post_tropFhc {γ : Type} {h : Heap α} {dt : DType} {ck : List Bool} {x r0 : List α} {m0 : List Int} {f : Unit → HM α γ}
    {Q : Except PyErr γ → Heap α → Prop} {cs : Option Ref} {c : Option (List Int)} (hc : HoldsOpt h cs c)
    (q : ∀ r m, r = (tropFhcV dt ck x r0 m0 c).1 → m = (tropFhcV dt ck x r0 m0 c).2 → Post (f ()) (h ++ [.flt dt r, .int m]) Q) :
    Post (tropFhcH dt ck x (h.length + 0) (h.length + 1) cs >>= f) (h ++ [.flt dt r0, .int m0]) Q := by
  have run : Runs (tropFhcH dt ck x (h.length + 0) (h.length + 1) cs) (h ++ [.flt dt r0, .int m0]) ()
      (h ++ [.flt dt (tropFhcV dt ck x r0 m0 c).1, .int (tropFhcV dt ck x r0 m0 c).2]) := by
    refine Post.elim ?_
    cases cs with
    | none =>
      cases c with
      | some c => exact hc.elim
      | none => exact ⟨rfl, rfl⟩
    | some cs =>
      cases c with
      | none => exact hc.elim
      | some c =>
        have hc' : h[cs]? = some (.int c) := hc
        unfold tropFhcH
        dsimp only
        run
        refine post_updI' _ rfl ?_
        intro _ _
        refine ⟨rfl, ?_⟩
        subst_vars
        rfl
  exact Post.bind run (q _ _ rfl rfl)

/-- **C109**, `calc_blended_rain_tropical`, with and without the convective-stratiform and hydrometeor arrays -/
theorem C109_tropical (P : Rain.TropParams α) (predef band : String) (dz zdr kdp : Ref) (cs fhc : Option Ref) (h : Heap α)
    (dt dt' dt'' : DType) (d z k : List α) (c f : Option (List Int)) (hd : h[dz]? = some (.flt dt d)) (hz : h[zdr]? = some (.flt dt' z))
    (hk : h[kdp]? = some (.flt dt'' k))
    (hc : HoldsOpt h cs c) (hf : HoldsOpt h fhc f) :
    ∃ r m h', tropicalH P predef band dz zdr kdp cs fhc h = (.ok (r, m), h') ∧
      h'[r]? = some (.flt dt (Rain.tropicalArr P predef band dt d z k c f).1) ∧
      h'[m]? = some (.int (Rain.tropicalArr P predef band dt d z k c f).2) := by
  have key : Post (tropicalH P predef band dz zdr kdp cs fhc) h (fun x g => ∃ o, x = .ok o ∧
      g[o.1]? = some (.flt dt (Rain.tropicalArr P predef band dt d z k c f).1) ∧
      g[o.2]? = some (.int (Rain.tropicalArr P predef band dt d z k c f).2)) := by
    refine start ?_
    unfold tropicalH
    run
    refine post_tropZ hc ?_
    intro _ _ _ _
    run
    refine post_tropFhc hf ?_
    intro _ _ _ _
    run
    refine Post.pure ⟨_, rfl, ?_, ?_⟩
    · rw [get_new (k := 0) rfl]
      subst_vars
      cases c <;> cases f <;> rfl
    · rw [get_new (k := 1) rfl]
      subst_vars
      cases c <;> cases f <;> rfl
  obtain ⟨_, h', run, ⟨r, m⟩, rfl, q⟩ := key.dest
  exact ⟨r, m, h', run, q⟩

/-- what three array objects hold -/
def Holds3 (h : Heap α) (a b c : Ref) (o : Dsd.Out α) : Prop :=
  h[a]? = some (.flt .float o.d0) ∧ h[b]? = some (.flt .float o.nw) ∧ h[c]? = some (.flt .float o.mu)

theorem post_assign3 {γ : Type} {h : Heap α} {m : List Bool} {v : List (α × α × α)} {a b c : List α} {f : Unit → HM α γ}
    {Q : Except PyErr γ → Heap α → Prop}
    (q : ∀ o, o = Dsd.assign3 m v ⟨a, b, c⟩ → Post (f ()) (h ++ [.flt .float o.d0, .flt .float o.nw, .flt .float o.mu]) Q) :
    Post (assign3H m v (h.length + 0) (h.length + 1) (h.length + 2) >>= f) (h ++ [.flt .float a, .flt .float b, .flt .float c]) Q := by
  have run : Runs (assign3H m v (h.length + 0) (h.length + 1) (h.length + 2)) (h ++ [.flt .float a, .flt .float b, .flt .float c]) ()
      (h ++ [.flt .float (Dsd.assign3 m v ⟨a, b, c⟩).d0, .flt .float (Dsd.assign3 m v ⟨a, b, c⟩).nw,
        .flt .float (Dsd.assign3 m v ⟨a, b, c⟩).mu]) := by
    refine Post.elim ?_
    unfold assign3H
    run
    refine post_updF' _ _ rfl ?_
    intro _ _
    refine ⟨rfl, ?_⟩
    subst_vars
    rfl
  exact Post.bind run (q _ rfl)

/-- **C109**, `calc_dsd` -/
theorem C109_dsd (band method : String) (dz zdr kdp : Ref) (h : Heap α) (dt dt' dt'' : DType) (d z k : List α)
    (hd : h[dz]? = some (.flt dt d)) (hz : h[zdr]? = some (.flt dt' z)) (hk : h[kdp]? = some (.flt dt'' k)) :
    match Dsd.dispatch band method d z k with
    | some o => ∃ a b c h', calcDsdH band method dz zdr kdp h = (.ok (some (a, b, c)), h') ∧
        h'[a]? = some (.flt .float o.d0) ∧ h'[b]? = some (.flt .float o.nw) ∧ h'[c]? = some (.flt .float o.mu)
    | none => calcDsdH band method dz zdr kdp h = (.ok none, h) := by
  unfold Dsd.dispatch calcDsdH
  by_cases hS : band = "S"
  · simp only [if_pos hS]
    by_cases hm : method = "2013"
    · simp only [if_pos hm]
      have key : Post (sband2013H dz zdr) h (fun x g => ∃ a b c, x = .ok (a, b, c) ∧ Holds3 g a b c (Dsd.sband2013 d z)) := by
        refine start ?_
        unfold sband2013H
        run
        refine Post.pure ⟨_, _, _, rfl, ?_, ?_, ?_⟩
        · rw [get_new (k := 0) rfl]; subst_vars; rfl
        · rw [get_new (k := 2) rfl]; subst_vars; rfl
        · rw [get_new (k := 3) rfl]; subst_vars; rfl
      obtain ⟨_, h', run, a, b, c, rfl, q⟩ := key.dest
      exact ⟨a, b, c, h', Runs.bind (h' := h') run (Eq.refl (Except.ok (some (a, b, c)), h')), q⟩
    · simp only [if_neg hm]
      have key : Post (sband2004H dz zdr kdp) h (fun x g => ∃ a b c, x = .ok (a, b, c) ∧ Holds3 g a b c (Dsd.sband2004 d z k)) := by
        refine start ?_
        unfold sband2004H
        run
        refine post_assign3 ?_
        intro _ _
        run
        refine post_assign3 ?_
        intro _ _
        run
        refine post_assign3 ?_
        intro _ _
        run
        refine post_assign3 ?_
        intro _ _
        refine Post.pure ⟨_, _, _, rfl, ?_, ?_, ?_⟩
        · rw [get_new (k := 0) rfl]; subst_vars; rfl
        · rw [get_new (k := 1) rfl]; subst_vars; rfl
        · rw [get_new (k := 2) rfl]; subst_vars; rfl
      obtain ⟨_, h', run, a, b, c, rfl, q⟩ := key.dest
      exact ⟨a, b, c, h', Runs.bind (h' := h') run (Eq.refl (Except.ok (some (a, b, c)), h')), q⟩
  · simp only [if_neg hS]
    by_cases hC : band = "C"
    · simp only [if_pos hC]
      have key : Post (cband2009H dz zdr) h (fun x g => ∃ a b c, x = .ok (a, b, c) ∧ Holds3 g a b c (Dsd.cband2009 d z)) := by
        refine start ?_
        unfold cband2009H
        run
        refine Post.pure ⟨_, _, _, rfl, ?_, ?_, ?_⟩
        · rw [get_new (k := 0) rfl]; subst_vars; rfl
        · rw [get_new (k := 2) rfl]; subst_vars; rfl
        · rw [get_new (k := 3) rfl]; subst_vars; rfl
      obtain ⟨_, h', run, a, b, c, rfl, q⟩ := key.dest
      exact ⟨a, b, c, h', Runs.bind (h' := h') run (Eq.refl (Except.ok (some (a, b, c)), h')), q⟩
    · simp only [if_neg hC]
      rfl

/-- **C109**, `zdp` -/
theorem C109_zdp (zh zv : Ref) (h : Heap α) (dt dt' : DType) (a b : List α) (ha : h[zh]? = some (.flt dt a)) (hb : h[zv]? = some (.flt dt' b)) :
    match Fund.zdp dt a b with
    | .ok v => ∃ r h', zdpH zh zv h = (.ok r, h') ∧ h'[r]? = some (.flt dt v)
    | .error e => zdpH zh zv h = (.error e, h) := by
  unfold Fund.zdp
  by_cases hl : a.length ≠ b.length
  · rw [if_pos hl]
    have key : Post (zdpH zh zv) (h ++ []) (fun x g => x = .error .valueError ∧ g = h ++ []) := by
      unfold zdpH
      run
      rw [if_pos (by assumption)]
      exact ⟨rfl, rfl⟩
    obtain ⟨_, _, e, rfl, rfl⟩ := key.dest
    simpa using e
  · rw [if_neg hl]
    have key : Post (zdpH zh zv) h (fun x g => ∃ r, x = .ok r ∧ g[r]? = some (.flt dt
        (maskCopy (List.zipWith (· >. ·) a b) (List.zipWith (fun a b => Fund.store dt (10 * PyFloat.log10 (a - b))) a b)
          (List.replicate a.length (Fund.nanLike dt))))) := by
      refine start ?_
      unfold zdpH
      run
      rw [if_neg (by assumption)]
      run
      refine Post.pure ⟨_, rfl, ?_⟩
      rw [get_new (k := 0) rfl]; subst_vars; rfl
    obtain ⟨_, h', run, r, rfl, q⟩ := key.dest
    exact ⟨r, h', run, q⟩

/-- **C109**, `hdr` -/
theorem C109_hdr (dbzH zdr : Ref) (h : Heap α) (dt dt' : DType) (d z : List α) (hd : h[dbzH]? = some (.flt dt d))
    (hz : h[zdr]? = some (.flt dt' z)) :
    ∃ r h', hdrH dbzH zdr h = (.ok r, h') ∧ h'[r]? = some (.flt .float (Fund.hdr d z)) := by
  have key : Post (hdrH dbzH zdr) h (fun x g => ∃ r, x = .ok r ∧ g[r]? = some (.flt .float (Fund.hdr d z))) := by
    refine start ?_
    unfold hdrH
    run
    refine post_newF' ?_
    intro _ _
    refine ⟨_, rfl, ?_⟩
    simp only [List.length_cons, List.length_nil, List.nil_append, List.cons_append, Nat.reduceAdd]
    rw [get_new (k := 1) rfl]; subst_vars; rfl
  obtain ⟨_, h', run, r, rfl, q⟩ := key.dest
  exact ⟨r, h', run, q⟩

/-- **C109**, the temperature trapezoids -/
theorem C109_traps (c : Int) (x : Ref) (h : Heap α) (t : DType) (xs : List α) (hx : h[x]? = some (.flt t xs)) :
    match Traps.getHidTraps c t xs with
    | some v => ∃ r h', getHidTrapsH c x h = (.ok (some r), h') ∧ h'[r]? = some (.flt t v)
    | none => getHidTrapsH c x h = (.ok none, h) := by
  have wrap : ∀ (p : HM α Ref) (v : List α), Post p h (fun y g => ∃ r, y = .ok r ∧ g[r]? = some (.flt t v)) →
      ∃ r h', (do let r ← p; pure (some r) : HM α (Option Ref)) h = (.ok (some r), h') ∧ h'[r]? = some (.flt t v) := by
    intro p v k
    obtain ⟨_, h', run, r, rfl, q⟩ := k.dest
    exact ⟨r, h', Runs.bind (h' := h') run (Eq.refl (Except.ok (some r), h')), q⟩
  have agg : ∀ a b c d : α, Post (tTrapAggH x a b c d) h (fun y g => ∃ r, y = .ok r ∧ g[r]? = some (.flt t (Traps.tTrapAgg t xs a b c d))) := by
    intro a b c d
    refine start ?_
    unfold tTrapAggH
    run
    exact Post.pure ⟨_, rfl, by rw [get_new (k := 0) rfl]; subst_vars; rfl⟩
  have bd : ∀ a b : α, Post (tTrapBdH x a b) h (fun y g => ∃ r, y = .ok r ∧ g[r]? = some (.flt t (Traps.tTrapBd t xs a b))) := by
    intro a b
    refine start ?_
    unfold tTrapBdH
    run
    exact Post.pure ⟨_, rfl, by rw [get_new (k := 0) rfl]; subst_vars; rfl⟩
  have dzz : ∀ a b : α, Post (tTrapDzH x a b) h (fun y g => ∃ r, y = .ok r ∧ g[r]? = some (.flt t (Traps.tTrapDz t xs a b))) := by
    intro a b
    refine start ?_
    unfold tTrapDzH
    run
    exact Post.pure ⟨_, rfl, by rw [get_new (k := 0) rfl]; subst_vars; rfl⟩
  have ha : ∀ a b c d : α, Post (tTrapHaH x a b c d) h (fun y g => ∃ r, y = .ok r ∧ g[r]? = some (.flt t (Traps.tTrapHa t xs a b c d))) := by
    intro a b c d
    refine start ?_
    unfold tTrapHaH
    run
    exact Post.pure ⟨_, rfl, by rw [get_new (k := 0) rfl]; subst_vars; rfl⟩
  have hdg : ∀ a b c d : α, Post (tTrapHdgH x a b c d) h (fun y g => ∃ r, y = .ok r ∧ g[r]? = some (.flt t (Traps.tTrapHdg t xs a b c d))) := by
    intro a b c d
    refine start ?_
    unfold tTrapHdgH
    run
    exact Post.pure ⟨_, rfl, by rw [get_new (k := 0) rfl]; subst_vars; rfl⟩
  have ic : ∀ a b : α, Post (tTrapIcH x a b) h (fun y g => ∃ r, y = .ok r ∧ g[r]? = some (.flt t (Traps.tTrapIc t xs a b))) := by
    intro a b
    refine start ?_
    unfold tTrapIcH
    run
    exact Post.pure ⟨_, rfl, by rw [get_new (k := 0) rfl]; subst_vars; rfl⟩
  have ldg : ∀ a b c d : α, Post (tTrapLdgH x a b c d) h (fun y g => ∃ r, y = .ok r ∧ g[r]? = some (.flt t (Traps.tTrapLdg t xs a b c d))) := by
    intro a b c d
    refine start ?_
    unfold tTrapLdgH
    run
    exact Post.pure ⟨_, rfl, by rw [get_new (k := 0) rfl]; subst_vars; rfl⟩
  have rain : ∀ a b : α, Post (tTrapRainH x a b) h (fun y g => ∃ r, y = .ok r ∧ g[r]? = some (.flt t (Traps.tTrapRain t xs a b))) := by
    intro a b
    refine start ?_
    unfold tTrapRainH
    run
    exact Post.pure ⟨_, rfl, by rw [get_new (k := 0) rfl]; subst_vars; rfl⟩
  have ws : ∀ a b : α, Post (tTrapWsH x a b) h (fun y g => ∃ r, y = .ok r ∧ g[r]? = some (.flt t (Traps.tTrapWs t xs a b))) := by
    intro a b
    refine start ?_
    unfold tTrapWsH
    run
    exact Post.pure ⟨_, rfl, by rw [get_new (k := 0) rfl]; subst_vars; rfl⟩
  unfold Traps.getHidTraps getHidTrapsH
  dsimp only
  by_cases h0 : c = 0
  · simp only [if_pos h0]; exact wrap _ _ (dzz _ _)
  by_cases h1 : c = 1
  · simp only [if_neg h0, if_pos h1]; exact wrap _ _ (rain _ _)
  by_cases h2 : c = 2
  · simp only [if_neg h0, if_neg h1, if_pos h2]; exact wrap _ _ (ic _ _)
  by_cases h3 : c = 3
  · simp only [if_neg h0, if_neg h1, if_neg h2, if_pos h3]; exact wrap _ _ (agg _ _ _ _)
  by_cases h4 : c = 4
  · simp only [if_neg h0, if_neg h1, if_neg h2, if_neg h3, if_pos h4]; exact wrap _ _ (ws _ _)
  by_cases h5 : c = 5
  · simp only [if_neg h0, if_neg h1, if_neg h2, if_neg h3, if_neg h4, if_pos h5]; exact wrap _ _ (ic _ _)
  by_cases h6 : c = 6
  · simp only [if_neg h0, if_neg h1, if_neg h2, if_neg h3, if_neg h4, if_neg h5, if_pos h6]; exact wrap _ _ (ldg _ _ _ _)
  by_cases h7 : c = 7
  · simp only [if_neg h0, if_neg h1, if_neg h2, if_neg h3, if_neg h4, if_neg h5, if_neg h6, if_pos h7]; exact wrap _ _ (hdg _ _ _ _)
  by_cases h8 : c = 8
  · simp only [if_neg h0, if_neg h1, if_neg h2, if_neg h3, if_neg h4, if_neg h5, if_neg h6, if_neg h7, if_pos h8]
    exact wrap _ _ (ha _ _ _ _)
  by_cases h9 : c = 9
  · simp only [if_neg h0, if_neg h1, if_neg h2, if_neg h3, if_neg h4, if_neg h5, if_neg h6, if_neg h7, if_neg h8, if_pos h9]
    exact wrap _ _ (bd _ _)
  simp only [if_neg h0, if_neg h1, if_neg h2, if_neg h3, if_neg h4, if_neg h5, if_neg h6, if_neg h7, if_neg h8, if_neg h9]
  rfl

theorem ravel_run {h : Heap α} {r : Ref} {dt : DType} {xs : List α} (c : Bool) (hr : h[r]? = some (.flt dt xs)) :
    ∃ r' l, Runs (ravel c r) h r' (h ++ l) ∧ (h ++ l)[r']? = some (.flt dt xs) := by
  unfold ravel
  cases c
  · exact ⟨h.length, [.flt dt xs], Runs.bind (h' := h) (runs_getF hr) rfl, get_new (k := 0) rfl⟩
  · exact ⟨r, [], by simp [Runs, pure], get_old hr⟩

theorem liquidIceCalcsH_post (dbz zdr th : Ref) (fitA fitB : Option α) (h : Heap α) (dt dt' dt'' : DType) (d z t : List α)
    (hd : h[dbz]? = some (.flt dt d)) (hz : h[zdr]? = some (.flt dt' z)) (ht : h[th]? = some (.flt dt'' t)) :
    Post (liquidIceCalcsH dbz zdr th fitA fitB) h (fun x g => match LiquidIce.liquidIceCalcs d z t fitA fitB with
      | .error e => x = .error e
      | .ok v => ∃ w i, x = .ok (w, i) ∧ g[w]? = some (.flt .float v.1) ∧ g[i]? = some (.flt .float v.2)) := by
  refine start ?_
  unfold liquidIceCalcsH LiquidIce.liquidIceCalcs
  run
  refine post_zdp ?_
  intro _ _ _
  simp only [List.length_cons, List.length_nil, List.nil_append, List.cons_append, Nat.reduceAdd]
  run
  cases fitA with
  | none =>
    refine Post.bind (runs_lift rfl) ?_
    dsimp only
    run
    refine Post.pure ⟨_, _, rfl, ?_, ?_⟩
    · rw [get_new (k := 0) rfl]; subst_vars; rfl
    · rw [get_new (k := 1) rfl]; subst_vars; rfl
  | some a =>
    cases fitB with
    | none => exact Post.lift_error rfl rfl
    | some b =>
      refine Post.bind (runs_lift rfl) ?_
      dsimp only
      run
      refine Post.pure ⟨_, _, rfl, ?_, ?_⟩
      · rw [get_new (k := 0) rfl]; subst_vars; rfl
      · rw [get_new (k := 1) rfl]; subst_vars; rfl

/-- an optional float array argument and its contents -/
def HoldsOptF (h : Heap α) : Option Ref → Option (List α) → Prop
  | none, none => True
  | some r, some v => ∃ dt, h[r]? = some (.flt dt v)
  | _, _ => False

/-- **C109**, `calc_liquid_ice_mass` -/
theorem C109_liquid_ice (argsort : List α → List Nat) (polyfit1 : List α → List α → α) (contiguous : Fin 4 → Bool)
    (dbz zdr z : Ref) (T : Option Ref) (hfrz : Option α) (method : String) (fitA fitB : Option α) (h : Heap α) (dt dt' dt'' : DType)
    (d r zs : List α) (t : Option (List α)) (hd : h[dbz]? = some (.flt dt d)) (hr : h[zdr]? = some (.flt dt' r))
    (hz : h[z]? = some (.flt dt'' zs)) (hT : HoldsOptF h T t) :
    match LiquidIce.calcLiquidIceMass argsort polyfit1 d r zs t hfrz method fitA fitB with
    | .error e => (calcLiquidIceMassH argsort polyfit1 contiguous dbz zdr z T hfrz fitA fitB h).1 = .error e
    | .ok none => (calcLiquidIceMassH argsort polyfit1 contiguous dbz zdr z T hfrz fitA fitB h).1 = .ok none
    | .ok (some v) => ∃ w i h', calcLiquidIceMassH argsort polyfit1 contiguous dbz zdr z T hfrz fitA fitB h = (.ok (some (w, i)), h') ∧
        h'[w]? = some (.flt .float v.1) ∧ h'[i]? = some (.flt .float v.2) := by
  have key : Post (calcLiquidIceMassH argsort polyfit1 contiguous dbz zdr z T hfrz fitA fitB) h (fun x g =>
      match LiquidIce.calcLiquidIceMass argsort polyfit1 d r zs t hfrz method fitA fitB with
      | .error e => x = .error e
      | .ok none => x = .ok none
      | .ok (some v) => ∃ w i, x = .ok (some (w, i)) ∧ g[w]? = some (.flt .float v.1) ∧ g[i]? = some (.flt .float v.2)) := by
    unfold calcLiquidIceMassH
    obtain ⟨dbz', l1, run1, hd1⟩ := ravel_run (contiguous 0) hd
    refine Post.bind run1 ?_
    obtain ⟨zdr', l2, run2, hr2⟩ := ravel_run (contiguous 1) (get_old (l := l1) hr)
    refine Post.bind run2 ?_
    obtain ⟨z', l3, run3, hz3⟩ := ravel_run (contiguous 2) (get_old (l := l2) (get_old (l := l1) hz))
    refine Post.bind run3 ?_
    obtain ⟨l4, run4⟩ : ∃ l4, Runs (tempsH (contiguous 3) T) (h ++ l1 ++ l2 ++ l3) t (h ++ l1 ++ l2 ++ l3 ++ l4) := by
      cases T with
      | none =>
        cases t with
        | none => exact ⟨[], by simp [tempsH, Runs, pure]⟩
        | some t => exact hT.elim
      | some T =>
        cases t with
        | none => exact hT.elim
        | some t =>
          obtain ⟨dT, hT⟩ := hT
          obtain ⟨t', l4, run, ht⟩ := ravel_run (contiguous 3) (get_old (l := l3) (get_old (l := l2) (get_old (l := l1) hT)))
          exact ⟨l4, Runs.bind run (Runs.bind (runs_getF ht) rfl)⟩
    refine Post.bind run4 ?_
    have hd4 := get_old (l := l4) (get_old (l := l3) (get_old (l := l2) hd1))
    have hr4 := get_old (l := l4) (get_old (l := l3) hr2)
    have hz4 := get_old (l := l4) hz3
    generalize h ++ l1 ++ l2 ++ l3 ++ l4 = g at hd4 hr4 hz4 ⊢
    refine Post.bind (runs_getF hz4) ?_
    dsimp only
    unfold LiquidIce.calcLiquidIceMass
    rcases e : LiquidIce.getHfrz argsort polyfit1 t zs hfrz with x | _ | f
    · exact Post.lift_error rfl rfl
    · refine Post.bind (runs_lift rfl) (Post.pure ?_)
      rfl
    · refine Post.bind (runs_lift rfl) ?_
      dsimp only
      refine Post.bind (getDeltaThreshH_run f hz4) ?_
      have step := liquidIceCalcsH_post dbz' zdr' g.length fitA fitB (g ++ [.flt .float (LiquidIce.getDeltaThresh zs f)]) dt dt' .float d r
        (LiquidIce.getDeltaThresh zs f) (get_old hd4) (get_old hr4) (get_new (k := 0) rfl)
      obtain ⟨x, g', run, q⟩ := step.dest
      rcases e2 : LiquidIce.liquidIceCalcs d r (LiquidIce.getDeltaThresh zs f) fitA fitB with y | v
      · rw [e2] at q
        dsimp only at q
        subst q
        refine Post.bind_error run ?_
        simp only [bind, Except.bind, e2]
      · rw [e2] at q
        obtain ⟨w, i, rfl, q1, q2⟩ := q
        refine Post.bind run (Post.pure ?_)
        simp only [bind, Except.bind, e2]
        exact ⟨w, i, rfl, q1, q2⟩
  obtain ⟨x, h', run, q⟩ := key.dest
  rcases e : LiquidIce.calcLiquidIceMass argsort polyfit1 d r zs t hfrz method fitA fitB with y | _ | v
  · rw [e] at q
    rw [run]
    exact q
  · rw [e] at q
    rw [run]
    exact q
  · rw [e] at q
    obtain ⟨w, i, rfl, q1, q2⟩ := q
    exact ⟨w, i, h', run, q1, q2⟩

/-! ## The hypotheses can be met -/

/-- one array for all three arguments -/
example : (blendedH Rain.Params.default "S" 0 0 0 ([.flt .float [40, 10]] : Heap QF)).1.toOption.isSome = true ∧
    (Rain.blendedArr Rain.Params.default "S" .float [40, 10] [40, 10] [40, (10 : QF)]).toOption.isSome = true := by decide +kernel

/-- the two facts about 0 and 1 that `despeckle` needs hold in every floating-point format, with or without rounding -/
theorem zero_one_facts {β : Type} [IeeeFloat β] : ((0 : β) ==. 0) = true ∧ ((1 : β) ==. 0) = false := by
  have e0 : IeeeFloat.val (0 : β) = .fin 0 := Ieee.vzero
  have e1 : IeeeFloat.val (1 : β) = .fin 1 := Ieee.vone
  refine ⟨?_, ?_⟩
  · show PyFloat.eq (0 : β) 0 = true
    rw [IeeeFloat.val_eq, e0]
    simp [XR.eq]
  · show PyFloat.eq (1 : β) 0 = false
    rw [IeeeFloat.val_eq, e0, e1]
    simp [XR.eq]

example : ((0 : Binary32) ==. 0) = true ∧ ((1 : Binary64) ==. 0) = false := ⟨zero_one_facts.1, zero_one_facts.2⟩

end Csu.Heap
