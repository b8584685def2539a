import Verif.Lemmas.HeapMelt
import Verif.Props.Objects2
/-!
# C139: `melting_layer` and `run_winter` on array objects

No array of the caller is changed; the returned arrays are new, the four category arrays of `run_winter` are four different objects (although
`run_winter` renumbers the array it got from `melting_layer` in place); the contents are those of the value models.
-/
namespace Csu.Heap
open Csu PyFloat Tables Fhc
variable {α : Type} [PyFloat α]

/-- the arguments of a melting-layer or winter call, as objects and as values -/
structure HoldsFields (h : Heap α) (R : FieldRefs) (F : Fields α) : Prop where
  dz : HoldsArr h R.dz F.dz
  zdr : HoldsArr h R.zdr F.zdr
  kdp : HoldsArr h R.kdp F.kdp
  rho : HoldsRho h R.rho F.rho
  sn : HoldsArr h R.sn F.sn
  T : HoldsArr h R.T F.T
  heights : HoldsArr h R.heights F.heights
  azimuths : match R.azimuths, F.azimuths with
    | none, none => True
    | some r, some azs => ∃ dt, h[r]? = some (.flt dt azs)
    | _, _ => False

/-- All arrays of the call have the shape of the reflectivity, and (for a scan with sectors) there is one azimuth per row: no broadcasting. -/
structure OneShape (A : MeltArgs α) (F : Fields α) : Prop where
  arrays : ∀ dz, F.dz = some dz → sameShape dz [F.zdr, F.kdp, F.rho.array, F.sn, F.heights] = true
  temp : ∀ dz, F.dz = some dz → sameShape dz [F.T] = true
  mask : ∀ dz m, F.dz = some dz → F.rho = .masked m → m.mask.length = dz.data.length
  rows : ∀ hs azs, F.heights = some hs → F.azimuths = some azs → isRhi A.scanType = false →
    (∃ n, hs.shape = [n]) ∨ ∃ cols, hs.shape = [azs.length, cols]

theorem mlInputsH_holds {h : Heap α} {R : FieldRefs} {F : Fields α} (e : HoldsFields h R F) : HoldsIn h (mlInputsH R) (mlInputs F) := by
  intro k
  cases k
  · exact e.dz
  · exact e.zdr
  · exact e.kdp
  · exact e.rho.arr
  · trivial
  · trivial

theorem winterInputsH_holds {h : Heap α} {R : FieldRefs} {F : Fields α} (e : HoldsFields h R F) : HoldsIn h (winterInputsH R) (winterInputs F) := by
  intro k
  cases k
  · exact e.dz
  · exact e.zdr
  · exact e.kdp
  · trivial
  · trivial
  · exact e.T

/-- the level array and the melting height(s) -/
def LevIs (n : Nat) (g : Heap α) (w : Ref × MeltRef α) (v : List Nat × Melt α) : Prop :=
  NewI n g w.1 (v.1.map Int.ofNat) ∧ MeltIs n g w.2 v.2

theorem meltLevelsH_sim {h0 l : Heap α} (env : Env) (A : MeltArgs α) {R : FieldRefs} {F : Fields α} (e : HoldsFields h0 R F) (os : OneShape A F)
    {dzr : FRef} {dz : NdArray α} (ed : h0[dzr.ref]? = some (.flt dz.dtype dz.data)) (hd : F.dz = some dz)
    {hr : FRef} {hs : NdArray α} (eh : h0[hr.ref]? = some (.flt hs.dtype hs.data)) (esh : hr.shape = hs.shape) (hh : F.heights = some hs)
    {fh : Ref} {f : List Int} (ef : (h0 ++ l)[fh]? = some (.int f)) (fl : f.length = dz.data.length) :
    Sim (h0 ++ l) (meltLevelsH env A R.azimuths dzr.ref hr fh) (h0 ++ l) (meltLevels env A F.azimuths dz hs f) (LevIs (h0 ++ l).length) := by
  have ss := os.arrays dz hd
  have hl : f.length = hs.data.length := by
    rw [fl]; exact (sameShape_length ss (by rw [hh]; simp)).1.symm
  unfold meltLevelsH meltLevels
  cases hrhi : isRhi A.scanType with
  | true =>
    rw [if_pos rfl, if_pos rfl]
    exact meltRhiH_sim env ef (get_old eh) hl A.expected
  | false =>
    rw [if_neg (by simp), if_neg (by simp)]
    have ea := e.azimuths
    unfold getMlPpiH getMlPpi
    cases hra : R.azimuths with
    | none =>
      rw [hra] at ea
      cases hfa : F.azimuths with
      | none => exact meltRhiH_sim _ ef (get_old eh) hl A.expected
      | some _ => rw [hfa] at ea; exact ea.elim
    | some azr =>
      rw [hra] at ea
      cases hfa : F.azimuths with
      | none => rw [hfa] at ea; exact ea.elim
      | some azs =>
        rw [hfa] at ea
        obtain ⟨dta, ea⟩ := ea
        dsimp only
        rw [esh]
        rcases os.rows hs azs hh hfa hrhi with ⟨n, hn⟩ | ⟨cols, hc⟩
        · rw [hn]
          cases n <;> exact Sim.raise0
        · have wf : azs.length * cols = hs.data.length := by
            have := (sameShape_length ss (by rw [hh]; simp) : hs.data.length = dz.data.length ∧ hs.shape = dz.shape)
            have w : dz.WF := by
              simp only [sameShape, Bool.and_eq_true, decide_eq_true_eq] at ss
              exact ss.1.2
            unfold NdArray.WF at w
            rw [this.1, w, ← this.2, hc]
            simp
          rw [hc]
          cases hz : azs.length with
          | zero => exact Sim.raise0
          | succ n =>
            have key := getMlPpiAzH_sim A.nsect cols (get_old (l := l) ea) ef (get_old ed) (get_old eh) hl wf A.expected
            simp only [hz, ne_eq, not_true_eq_false, if_false]
            exact key

/-- What `melting_layer` returns, as objects: new arrays, the level array distinct from the category array. -/
def MeltOutIs (n : Nat) (g : Heap α) : Option (MeltRefs α) → Option (MeltOut α) → Prop
  | none, none => True
  | some w, some v => w.shape = v.shape ∧ NewI n g w.meltlev (v.meltlev.map Int.ofNat) ∧ MeltIs n g w.melt v.melt ∧ NewI n g w.fh v.fh ∧
      NewRows n g w.scores v.scores ∧ w.meltlev ≠ w.fh
  | _, _ => False

theorem length_qc (snv : Option (NdArray α)) (snThresh : α) (m : Masked α) (minRH : α) (f : List Int) (n : Nat) (hf : f.length = n)
    (hs : ∀ s, snv = some s → s.data.length = n) (hm : m.mask.length = n) (ha : m.arr.data.length = n) :
    (qualityControl (snv.map (·.data)) snThresh m minRH f).length = n := by
  unfold qualityControl
  cases snv with
  | none => simp [maskSet, hf, hm, ha]
  | some s => simp [maskSet, hf, hm, ha, hs s rfl]

theorem MeltIs.le {n n' : Nat} (hn : n ≤ n') {g : Heap α} {w : MeltRef α} {v : Melt α} (e : MeltIs n' g w v) : MeltIs n g w v := by
  cases w <;> cases v <;> first | exact e | exact ⟨Nat.le_trans hn e.1, e.2⟩

theorem meltingLayerH_sim {h : Heap α} (hn : isnan (PyFloat.nan : α) = true) (env : Env) (A : MeltArgs α) {R : FieldRefs} {F : Fields α}
    (e : HoldsFields h R F) (os : OneShape A F) :
    Sim h (meltingLayerH env A R) h (meltingLayer env A F) (MeltOutIs h.length) := by
  unfold meltingLayerH meltingLayer
  refine Sim.bind (ml_sim (mlInputsH_holds e) env.verbose false mlCallArgs) fun o v l _ r => ?_
  cases v with
  | none =>
    cases o with
    | none => exact Sim.of_eq (q := Heap.raise .valueError) rfl Sim.raise
    | some _ => exact r.elim
  | some v =>
    obtain ⟨sh, rows⟩ := v
    cases o with
    | none => exact r.elim
    | some o =>
      obtain ⟨sh', mu⟩ := o
      have rr : NewRows h.length (h ++ l) mu rows := by
        refine forall₂_weaken (fun q row a => ⟨?_, a.2⟩) r.2
        have := a.1
        unfold IsNew at this
        rwa [List.getElem?_eq_none_iff] at this
      refine Sim.of_eq (q := match R.dz with
        | none => Heap.raise .valueError
        | some dz => do
          let (_, d) ← Heap.getF dz.ref
          let fh ← classifyH d.length mu
          match R.rho with
          | .none => Heap.raise .attributeError
          | .plain _ => Heap.raise .attributeError
          | .masked a mask => do
            snQcH A.snThresh fh R.sn
            rhoQcH A.minRH fh a mask
            meltEndH env A R dz fh mu) (g := h ++ l) rfl ?_
      dsimp only
      have ed := e.dz
      cases hd : F.dz with
      | none =>
        rw [hd] at ed
        cases hrd : R.dz with
        | none => exact Sim.raise
        | some _ => rw [hrd] at ed; exact ed.elim
      | some dz =>
        rw [hd] at ed
        cases hrd : R.dz with
        | none => rw [hrd] at ed; exact ed.elim
        | some dzr =>
          rw [hrd] at ed
          dsimp only
          have ss := os.arrays dz hd
          rw [if_neg (by rw [ss]; simp)]
          refine Sim.getF (get_old ed.1) ?_
          dsimp only
          refine Sim.step (classifyH_sim dz.data.length rr).base fun fh l1 r1 => ?_
          obtain ⟨r1, l1', hl1⟩ := r1
          have hfh : h.length ≤ fh := Nat.le_trans (by simp) r1.1
          have rr1 : NewRows h.length (h ++ l1) mu rows := by
            rw [hl1]; exact NewRows.mono (Nat.le_refl _) rr
          have er := e.rho
          cases hfr : F.rho with
          | none =>
            rw [hfr] at er
            cases hrr : R.rho with
            | none => exact Sim.raise
            | plain a => rw [hrr] at er; exact er.elim
            | masked a m => rw [hrr] at er; cases m <;> exact er.elim
          | plain a =>
            rw [hfr] at er
            cases hrr : R.rho with
            | none => rw [hrr] at er; exact er.elim
            | plain a => exact Sim.raise
            | masked a m => rw [hrr] at er; cases m <;> exact er.elim
          | masked m =>
            rw [hfr] at er
            cases hrr : R.rho with
            | none => rw [hrr] at er; exact er.elim
            | plain a => rw [hrr] at er; exact er.elim
            | masked a mask =>
              rw [hrr] at er
              dsimp only
              have hml := os.mask dz m hd hfr
              rw [if_neg (by simp [hml])]
              refine qc_sim hn hfh r1.2 A.snThresh A.minRH e.sn er fun l2 o2 e2 => ?_
              have rr2 : NewRows h.length (h ++ l2) mu rows := rr1.upd r1.2 o2
              unfold meltEndH
              have eh := e.heights
              cases hfh' : F.heights with
              | none =>
                rw [hfh'] at eh
                cases hrh : R.heights with
                | none => exact Sim.pure trivial
                | some _ => rw [hrh] at eh; exact eh.elim
              | some hs =>
                rw [hfh'] at eh
                cases hrh : R.heights with
                | none => rw [hrh] at eh; exact eh.elim
                | some hr =>
                  rw [hrh] at eh
                  dsimp only
                  have fl := length_qc F.sn A.snThresh m A.minRH ((classify dz.data.length rows).map Int.ofNat) dz.data.length
                    (by rw [List.length_map, length_classify])
                    (fun s hs => (sameShape_length ss (by rw [hs]; simp)).1) hml
                    ((sameShape_length ss (by rw [hfr]; simp [RhoArg.array])).1)
                  refine Sim.bind (meltLevelsH_sim env A e os ed.1 hd eh.1 eh.2 hfh' e2 fl).base fun w v l3 _ r3 => ?_
                  obtain ⟨⟨r3, r4⟩, l3', hl3⟩ := r3
                  refine Sim.pure (v := some _) ⟨ed.2, ⟨Nat.le_trans (by simp) r3.1, r3.2⟩, r4.le (by simp), ⟨hfh, ?_⟩, ?_, ?_⟩
                  · rw [hl3]; exact get_old e2
                  · rw [hl3]; exact NewRows.mono (Nat.le_refl _) rr2
                  · intro hc
                    have := r3.1
                    change w.1 = fh at hc
                    have h4 := (List.getElem?_eq_some_iff.mp e2).1
                    rw [hc] at this
                    exact absurd h4 (by omega)

theorem HoldsRho.mono {h l : Heap α} {R : RhoRef} {a : RhoArg α} (e : HoldsRho h R a) : HoldsRho (h ++ l) R a := by
  cases R with
  | none => cases a <;> first | exact e | exact e.elim
  | plain f => cases a <;> first | exact ⟨get_old e.1, e.2⟩ | exact e.elim
  | masked f b =>
    cases b <;> cases a <;> first | exact e.elim | exact ⟨get_old e.1, e.2.1, e.2.2⟩ | exact ⟨get_old e.1, e.2.1, get_old e.2.2⟩

theorem NewRows.of_are {h g : Heap α} {mu : List Ref} {rows : List (List α)} (e : RowsAre h g mu rows) : NewRows h.length g mu rows :=
  forall₂_weaken (fun _ _ a => ⟨by have := a.1; unfold IsNew at this; rwa [List.getElem?_eq_none_iff] at this, a.2⟩) e

theorem winterRowsH_sim {h : Heap α} (env : Env) (warm : Bool) {R : FieldRefs} {F : Fields α}
    (e : HoldsIn h (winterInputsH R) (winterInputs F)) :
    Sim h (winterRowsH env warm R) h (winterRows env warm F) (NewRows h.length) := by
  unfold winterRowsH winterRows
  refine Sim.bind (winter_sim e env.verbose false 7 (winterCallArgs warm)) fun o v l _ r => ?_
  cases v with
  | none =>
    cases o with
    | none => exact Sim.raise
    | some _ => exact r.elim
  | some v =>
    cases o with
    | none => exact r.elim
    | some o => exact Sim.pure (NewRows.of_are r.2)

/-- What `run_winter` returns, as objects: new arrays, the four category arrays four different objects. -/
structure WinterIs (h g : Heap α) (w : WinterRefs) (v : WinterOut α) : Prop where
  shape : w.shape = v.shape
  hca : IsNew h w.hca ∧ g[w.hca]? = some (.int v.hca)
  ml : IsNew h w.ml ∧ g[w.ml]? = some (.int v.ml)
  warm : IsNew h w.warm ∧ g[w.warm]? = some (.int v.warm)
  cold : IsNew h w.cold ∧ g[w.cold]? = some (.int v.cold)
  scoresMl : RowsAre h g w.scoresMl v.scoresMl
  scoresWarm : RowsAre h g w.scoresWarm v.scoresWarm
  scoresCold : RowsAre h g w.scoresCold v.scoresCold
  distinct : [w.hca, w.ml, w.warm, w.cold].Nodup

theorem ne_of_ge {g : Heap α} {q r : Ref} {c : Cell α} (e : g[q]? = some c) (hr : g.length ≤ r) : q ≠ r :=
  ne_of_new e (List.getElem?_eq_none hr)

theorem beq_ofNat (l : List Nat) (v : Nat) : (l.map Int.ofNat).map (· == Int.ofNat v) = l.map (· == v) := by
  rw [List.map_map]
  congr 1
  funext x
  show (Int.ofNat x == Int.ofNat v) = (x == v)
  rw [Bool.eq_iff_iff]
  simp

theorem Sim.pureStep {β γ δ : Type} {h0 h : Heap α} {w : β} {f : β → HM α γ} {x : Except PyErr δ} {S : Heap α → γ → δ → Prop}
    (b : Sim h0 (f w) h x S) : Sim h0 (Pure.pure w >>= f) h x S := b

theorem runWinterH_sim {h : Heap α} (hn : isnan (PyFloat.nan : α) = true) (env : Env) (A : MeltArgs α) {R : FieldRefs} {F : Fields α}
    (e : HoldsFields h R F) (os : OneShape A F) :
    Sim h (runWinterH env A R) h (runWinter env A F) (WinterIs h) := by
  unfold runWinterH runWinter
  refine Sim.bind (meltingLayerH_sim hn env A e os) fun o v l _ r => ?_
  cases v with
  | none =>
    cases o with
    | none => exact Sim.of_eq (q := Heap.raise .typeError) rfl Sim.raise
    | some _ => exact r.elim
  | some V =>
    cases o with
    | none => exact r.elim
    | some M =>
      obtain ⟨rs, rlev, _, rfh, rsc, rne⟩ := r
      have ed := e.dz
      cases hd : F.dz with
      | none =>
        rw [hd] at ed
        cases hrd : R.dz with
        | none => exact Sim.of_eq (q := Heap.raise .valueError) rfl Sim.raise
        | some _ => rw [hrd] at ed; exact ed.elim
      | some dz =>
        rw [hd] at ed
        cases hrd : R.dz with
        | none => rw [hrd] at ed; exact ed.elim
        | some dzr =>
          rw [hrd] at ed
          dsimp only
          rw [if_neg (by rw [os.temp dz hd]; simp)]
          refine Sim.pureStep (w := M) ?_
          -- scores_warm
          refine Sim.bind (winterRowsH_sim env true (winterInputsH_holds e).mono).base fun muW rowsW l1 _ r1 => ?_
          obtain ⟨r1, l1', hl1⟩ := r1
          have u1 : Unchanged (h ++ l) (h ++ l1) := by rw [hl1]; exact unchanged_append _ _
          have r1 : NewRows h.length (h ++ l1) muW rowsW := r1.le (by simp)
          refine Sim.getF (get_old ed.1) ?_
          dsimp only
          -- fhwarm
          refine Sim.step (classifyH_sim dz.data.length r1).base fun wr l2 r2 => ?_
          obtain ⟨r2, l2', hl2⟩ := r2
          have u2 : Unchanged (h ++ l1) (h ++ l2) := by rw [hl2]; exact unchanged_append _ _
          have hw : h.length ≤ wr := Nat.le_trans (by simp) r2.1
          have nfw : M.fh ≠ wr := ne_of_ge (u1 _ _ rfh.2) r2.1
          have nlw : M.meltlev ≠ wr := ne_of_ge (u1 _ _ rlev.2) r2.1
          refine Sim.updI_at hw r2.2 fun l3 o3 e3 => ?_
          refine Sim.updI_at hw e3 fun l4 o4 e4 => ?_
          have o34 := o3.trans o4
          -- scores_cold
          refine Sim.bind (winterRowsH_sim env false (winterInputsH_holds e).mono).base fun muC rowsC l5 _ r5 => ?_
          obtain ⟨r5, l5', hl5⟩ := r5
          have u5 : Unchanged (h ++ l4) (h ++ l5) := by rw [hl5]; exact unchanged_append _ _
          have r5 : NewRows h.length (h ++ l5) muC rowsC := r5.le (by simp)
          -- fhcold
          refine Sim.step (classifyH_sim dz.data.length r5).base fun cr l6 r6 => ?_
          obtain ⟨r6, l6', hl6⟩ := r6
          have u6 : Unchanged (h ++ l5) (h ++ l6) := by rw [hl6]; exact unchanged_append _ _
          have hc : h.length ≤ cr := Nat.le_trans (by simp) r6.1
          have f5 : (h ++ l5)[M.fh]? = some (.int V.fh) := u5 _ _ (o34 _ _ nfw (u2 _ _ (u1 _ _ rfh.2)))
          have v5 : (h ++ l5)[M.meltlev]? = some (.int (V.meltlev.map Int.ofNat)) := u5 _ _ (o34 _ _ nlw (u2 _ _ (u1 _ _ rlev.2)))
          have w5 := u5 _ _ e4
          have nfc : M.fh ≠ cr := ne_of_ge f5 r6.1
          have nlc : M.meltlev ≠ cr := ne_of_ge v5 r6.1
          have nwc : wr ≠ cr := ne_of_ge w5 r6.1
          have s5 : NewRows h.length (h ++ l5) M.scores V.scores :=
            ((((rsc.unchanged u1).unchanged u2).upd r2.2 o3).upd e3 o4).unchanged u5
          have m5 : NewRows h.length (h ++ l5) muW rowsW := (((r1.unchanged u2).upd r2.2 o3).upd e3 o4).unchanged u5
          -- wet snow renumbered in place
          refine Sim.updI_at rfh.1 (u6 _ _ f5) fun l7 o7 e7 => ?_
          refine Sim.getI e7 ?_
          refine Sim.new_at fun hr l8 hhr nhr u8 e8 => ?_
          have nfh : M.fh ≠ hr := ne_of_new e7 nhr
          have v7 := o7 _ _ rne (u6 _ _ v5)
          have w7 := o7 _ _ (Ne.symm nfw) (u6 _ _ w5)
          have c7 := o7 _ _ (Ne.symm nfc) r6.2
          have nlh : M.meltlev ≠ hr := ne_of_new v7 nhr
          have nwh : wr ≠ hr := ne_of_new w7 nhr
          have nch : cr ≠ hr := ne_of_new c7 nhr
          refine Sim.getI (u8 _ _ v7) ?_
          refine Sim.getI (u8 _ _ w7) ?_
          refine Sim.updI_at hhr e8 fun l9 o9 e9 => ?_
          refine Sim.getI (o9 _ _ nch (u8 _ _ c7)) ?_
          refine Sim.updI_at hhr e9 fun l10 o10 e10 => ?_
          have og : Sim h (gridH (A.scanType == "grid") hr (V.meltlev.map Int.ofNat) ((classify dz.data.length rowsC).map Int.ofNat)) (h ++ l10)
              (.ok ()) (fun g _ _ => Only hr (h ++ l10) g ∧ ∀ xs, (h ++ l10)[hr]? = some (.int xs) → g[hr]? = some (.int
                (if (A.scanType == "grid") = true then
                  maskCopy ((V.meltlev.map Int.ofNat).map (· == 1)) ((classify dz.data.length rowsC).map Int.ofNat) xs else xs))) := by
            unfold gridH
            cases (A.scanType == "grid")
            · exact Sim.pure ⟨fun _ _ _ h => h, fun _ h => h⟩
            · refine Sim.last (Sim.updI_at hhr e10 fun l' o e' => Sim.pure ⟨o, fun xs hx => ?_⟩)
              rw [e10] at hx
              cases hx
              exact e'
          refine Sim.step og fun _ l11 r11 => ?_
          have e11 := r11.2 _ e10
          refine Sim.getI (r11.1 _ _ nfh (o10 _ _ nfh (o9 _ _ nfh (u8 _ _ e7)))) ?_
          refine Sim.updI_at hhr e11 fun l12 o12 e12 => ?_
          refine Sim.updI_at hhr e12 fun l13 o13 e13 => ?_
          refine Sim.updI_at hhr e13 fun l14 o14 e14 => ?_
          have oo := ((((o9.trans o10).trans r11.1).trans o12).trans o13).trans o14
          have rows : ∀ {mu : List Ref} {rs : List (List α)}, NewRows h.length (h ++ l5) mu rs → RowsAre h (h ++ l14) mu rs := fun q =>
            (((((((((q.unchanged u6).upd (u6 _ _ f5) o7).unchanged u8).upd e8 o9).upd e9 o10).upd e10 r11.1).upd e11 o12).upd e12 o13).upd e13
              o14).are
          have isn : ∀ {q : Ref}, h.length ≤ q → IsNew h q := fun q => List.getElem?_eq_none q
          refine Sim.pure ⟨rs, ⟨isn hhr, ?_⟩, ⟨isn rfh.1, oo _ _ nfh (u8 _ _ e7)⟩, ⟨isn hw, oo _ _ nwh (u8 _ _ w7)⟩,
            ⟨isn hc, oo _ _ nch (u8 _ _ c7)⟩, rows s5, rows m5, rows r5, ?_⟩
          · rw [e14]
            have b0 := beq_ofNat V.meltlev 0
            have b1 := beq_ofNat V.meltlev 1
            have b2 := beq_ofNat V.meltlev 2
            unfold combine
            dsimp only
            rw [← b0, ← b1, ← b2]
            rfl
          · simp [nfw, nfc, nwc, Ne.symm nfh, Ne.symm nwh, Ne.symm nch]

/-- C139: `melting_layer` leaves the caller's arrays as they were (also the data and the mask of `rho`, and if it raises), and returns new arrays
with the contents the value model computes. -/
theorem C139_melting_layer (hn : isnan (PyFloat.nan : α) = true) (env : Env) (A : MeltArgs α) (h : Heap α) (R : FieldRefs) (F : Fields α)
    (e : HoldsFields h R F) (os : OneShape A F) :
    Unchanged h (meltingLayerH env A R h).2 ∧
    (∀ err, meltingLayer env A F = .error err → (meltingLayerH env A R h).1 = .error err) ∧
    ∀ v, meltingLayer env A F = .ok v →
      ∃ w, (meltingLayerH env A R h).1 = .ok w ∧ MeltOutIs h.length (meltingLayerH env A R h).2 w v :=
  (meltingLayerH_sim hn env A e os).caller

/-- C139: the same for `run_winter`; the combined categories and the three arrays of the dictionary are different objects. -/
theorem C139_run_winter (hn : isnan (PyFloat.nan : α) = true) (env : Env) (A : MeltArgs α) (h : Heap α) (R : FieldRefs) (F : Fields α)
    (e : HoldsFields h R F) (os : OneShape A F) :
    Unchanged h (runWinterH env A R h).2 ∧
    (∀ err, runWinter env A F = .error err → (runWinterH env A R h).1 = .error err) ∧
    ∀ v, runWinter env A F = .ok v →
      ∃ w, (runWinterH env A R h).1 = .ok w ∧ WinterIs h (runWinterH env A R h).2 w v :=
  (runWinterH_sim hn env A e os).caller

/-- Reflectivity (also passed as the signal-to-noise ratio), the data (also passed as the
differential reflectivity) and mask of `rho`, temperature, heights. -/
def shared139 : Heap QF :=
  [.flt .float [QF.q 30, QF.q 45, QF.q 3], .flt .float [QF.q (9/10), QF.q (99/100), QF.q (1/10)], .bool [true, false, false],
   .flt .float [QF.q 5, QF.q (-5), QF.q 0], .flt .float [QF.q 1, QF.q 6, QF.q 4]]
/-- the references of that call -/
def refs139 : FieldRefs :=
  { dz := some ⟨0, [3]⟩, zdr := some ⟨1, [3]⟩, kdp := none, rho := .masked ⟨1, [3]⟩ (some 2), sn := some ⟨0, [3]⟩, T := some ⟨3, [3]⟩,
    heights := some ⟨4, [3]⟩, azimuths := none }
/-- the arrays of that call -/
def fields139 : Fields QF :=
  { dz := some ⟨.float, [3], [QF.q 30, QF.q 45, QF.q 3]⟩
    zdr := some ⟨.float, [3], [QF.q (9/10), QF.q (99/100), QF.q (1/10)]⟩
    rho := .masked ⟨⟨.float, [3], [QF.q (9/10), QF.q (99/100), QF.q (1/10)]⟩, [true, false, false]⟩
    sn := some ⟨.float, [3], [QF.q 30, QF.q 45, QF.q 3]⟩
    T := some ⟨.float, [3], [QF.q 5, QF.q (-5), QF.q 0]⟩
    heights := some ⟨.float, [3], [QF.q 1, QF.q 6, QF.q 4]⟩ }

-- the hypotheses are met, and the call returns
example : HoldsFields shared139 refs139 fields139 ∧ OneShape (α := QF) {} fields139 ∧ isnan (PyFloat.nan : QF) = true ∧
    (runWinterH ⟨false, true⟩ {} refs139 shared139).1.toOption.isSome = true ∧
    (runWinter ⟨false, true⟩ {} fields139).toOption.map (·.hca) = some [-1, 4, -1] := by
  refine ⟨?_, ?_, by decide +kernel, by decide +kernel, by decide +kernel⟩
  · refine ⟨⟨rfl, rfl⟩, ⟨rfl, rfl⟩, trivial, ⟨rfl, rfl, rfl⟩, ⟨rfl, rfl⟩, ⟨rfl, rfl⟩, ⟨rfl, rfl⟩, trivial⟩
  · refine ⟨?_, ?_, ?_, ?_⟩
    · intro dz hd
      cases hd
      decide +kernel
    · intro dz hd
      cases hd
      decide +kernel
    · intro dz m hd hm
      cases hd
      cases hm
      rfl
    · intro hs azs _ ha
      cases ha

end Csu.Heap
