import Verif.Props.RainSizes
import Verif.Props.Rain3
/-!
# Property C161: rain fields of different lengths, tropical rain
-/
namespace Csu.Rain
open Csu PyFloat Csu.Common Csu.LiquidIce
variable {α : Type} [PyFloat α]

/-- an optional class array that has `n` elements or one -/
def OptSpreads (n : Nat) (c : Option (List Int)) : Prop := ∀ l, c = some l → l.length = n ∨ l.length = 1

theorem pure_ok {ε β γ : Type} (x : β) (f : β → Except ε γ) : ((Pure.pure x : Except ε β) >>= f) = f x := rfl

/-- arrays of fitting lengths -/
theorem tropicalSizes_fit (P : TropParams α) (predef band : String) (dt : DType) {dz zdr kdp : List α} {cs fhc : Option (List Int)}
    (hk : kdp.length = dz.length) (hz : Spreads dz.length zdr) (hc : OptSpreads dz.length cs) (hf : ∀ l, fhc = some l → l.length = dz.length) :
    tropicalSizes P predef band dt dz zdr kdp cs fhc =
      .ok (tropicalArr P predef band dt dz (spread dz.length zdr) kdp (cs.map (spread dz.length)) fhc) := by
  have h1 : ∀ {β δ : Type} (f : β → α → δ) (l : List β), l.length = dz.length → bcast f l zdr = .ok (List.zipWith f l (spread dz.length zdr)) :=
    fun f l h => bcast_spread f h hz
  have h2 : ∀ (l : List Bool) (p : α → Bool), l.length = dz.length → andAny l (zdr.map p) = .ok (logicalAnd l ((spread dz.length zdr).map p)) := by
    intro l p h
    rw [← spread_map]
    exact bcast_spread _ h (by simpa [Spreads] using hz)
  have h3 : ∀ (l : List Bool) (p : α → Bool), l.length = dz.length → andAny (zdr.map p) l = .ok (logicalAnd ((spread dz.length zdr).map p) l) := by
    intro l p h
    rw [← spread_map]
    exact bcast_spread' _ (by simpa [Spreads] using hz) h
  have h4 : (spread dz.length zdr).length = dz.length := spread_length hz
  simp only [tropicalSizes, tropicalArr, invert_map]
  generalize tropPredef predef band P = Q
  cases cs with
  | none =>
    cases fhc with
    | none =>
      simp only [tropTypesSizes, tropIceSizes, andAny_eq, setAny_eq, copyAny_eq, h1, h2, h3, except_ok, pure_ok, hk, h4, List.length_map, List.length_zipWith, min_self,
        len_and, len_inv, len_set, len_copy, and_self]
      rfl
    | some f =>
      have hf := hf f rfl
      simp only [tropTypesSizes, tropIceSizes, andAny_eq, setAny_eq, copyAny_eq, h1, h2, h3, except_ok, pure_ok, hk, h4, hf, List.length_map, List.length_zipWith, min_self,
        len_and, len_inv, len_set, len_copy, and_self]
      rfl
  | some c =>
    have hc : Spreads dz.length c := hc c rfl
    have c2 : ∀ (l : List Bool) (p : Int → Bool), l.length = dz.length → andAny l (c.map p) = .ok (logicalAnd l ((spread dz.length c).map p)) := by
      intro l p h
      rw [← spread_map]
      exact bcast_spread _ h (by simpa [Spreads] using hc)
    have c4 : (spread dz.length c).length = dz.length := spread_length hc
    cases fhc with
    | none =>
      simp only [tropTypesSizes, tropIceSizes, andAny_eq, setAny_eq, copyAny_eq, h1, h2, h3, c2, c4, except_ok, pure_ok, hk, h4, List.length_map, List.length_zipWith, min_self,
        len_and, len_inv, len_set, len_copy, and_self, Option.map_some]
      rfl
    | some f =>
      have hf := hf f rfl
      simp only [tropTypesSizes, tropIceSizes, andAny_eq, setAny_eq, copyAny_eq, h1, h2, h3, c2, c4, except_ok, pure_ok, hk, h4, hf, List.length_map, List.length_zipWith, min_self,
        len_and, len_inv, len_set, len_copy, and_self, Option.map_some]
      rfl

theorem tropTypes_ok {dt : DType} {c4 : List Bool} {a b c r : List α} {m : List Int} {cs : Option (List Int)} {o : List α × List Int}
    (h : tropTypesSizes dt c4 a b c r m cs = .ok o) :
    o.1.length = r.length ∧ o.2.length = m.length ∧ OptSpreads m.length cs := by
  cases cs with
  | none =>
    obtain ⟨m1, s1, h⟩ := ok_bind h
    obtain ⟨r1, q1, h⟩ := ok_bind h
    cases h
    exact ⟨(copy_len q1).2.2, (set_len s1).2, by simp [OptSpreads]⟩
  | some l =>
    obtain ⟨d1, e1, h⟩ := ok_bind h
    obtain ⟨d2, e2, h⟩ := ok_bind h
    obtain ⟨d3, e3, h⟩ := ok_bind h
    obtain ⟨m1, s1, h⟩ := ok_bind h
    obtain ⟨m2, s2, h⟩ := ok_bind h
    obtain ⟨m3, s3, h⟩ := ok_bind h
    obtain ⟨r1, q1, h⟩ := ok_bind h
    obtain ⟨r2, q2, h⟩ := ok_bind h
    obtain ⟨r3, q3, h⟩ := ok_bind h
    cases h
    have s1 := set_len s1
    have s2 := set_len s2
    have s3 := set_len s3
    have q1 := copy_len q1
    have q2 := copy_len q2
    have q3 := copy_len q3
    have v := (bcast_len e1).2
    rw [s1.1] at v
    refine ⟨by dsimp only; omega, by dsimp only; omega, ?_⟩
    rintro l' hl
    cases hl
    simpa [Spreads] using v

theorem tropIce_ok {dt : DType} {c : List Bool} {k r : List α} {m : List Int} {fhc : Option (List Int)} {o : List α × List Int}
    (h : tropIceSizes dt c k r m fhc = .ok o) : ∀ l, fhc = some l → l.length = r.length := by
  rintro l rfl
  obtain ⟨d1, e1, h⟩ := ok_bind h
  obtain ⟨r1, q1, h⟩ := ok_bind h
  unfold andAny at e1
  rw [bcast_eq _ _ _ (by simp)] at e1
  cases e1
  have := (set_len q1).1
  simpa using this

/-- what the lengths must be for tropical rain to come out: Kdp and the hydrometeor classes have the length of the reflectivity, Zdr and the rain types
that length or one element -/
def FitsTrop (dz zdr kdp : List α) (cs fhc : Option (List Int)) : Prop :=
  kdp.length = dz.length ∧ (zdr.length = dz.length ∨ zdr.length = 1) ∧ OptSpreads dz.length cs ∧ ∀ l, fhc = some l → l.length = dz.length

/-- only arrays of fitting lengths give a result -/
theorem tropicalSizes_ok {P : TropParams α} {predef band : String} {dt : DType} {dz zdr kdp : List α} {cs fhc : Option (List Int)} {o : List α × List Int}
    (h : tropicalSizes P predef band dt dz zdr kdp cs fhc = .ok o) : FitsTrop dz zdr kdp cs fhc := by
  unfold tropicalSizes at h
  dsimp only at h
  obtain ⟨rkz, h1, h⟩ := ok_bind h
  obtain ⟨rzz, -, h⟩ := ok_bind h
  obtain ⟨ckz, -, h⟩ := ok_bind h
  obtain ⟨d1, -, h⟩ := ok_bind h
  obtain ⟨d2, -, h⟩ := ok_bind h
  obtain ⟨d3, -, h⟩ := ok_bind h
  obtain ⟨d4, -, h⟩ := ok_bind h
  obtain ⟨o1, t1, h⟩ := ok_bind h
  obtain ⟨m1, s1, h⟩ := ok_bind h
  obtain ⟨m2, s2, h⟩ := ok_bind h
  obtain ⟨m3, s3, h⟩ := ok_bind h
  obtain ⟨r1, q1, h⟩ := ok_bind h
  obtain ⟨r2, q2, h⟩ := ok_bind h
  obtain ⟨r3, q3, h⟩ := ok_bind h
  obtain ⟨o2, t2, h⟩ := ok_bind h
  obtain ⟨u1, u2, u3⟩ := tropTypes_ok t1
  have u4 := tropIce_ok t2
  have q1 := copy_len q1
  have q2 := copy_len q2
  have q3 := copy_len q3
  have w := (bcast_len h1).2
  simp only [List.length_map] at u1 u2 u3 q1 q2 q3
  rw [show rkz.length = dz.length by omega] at w
  exact ⟨by omega, w, u3, fun l hl => by rw [u4 l hl]; omega⟩

/-- **C161.** `calc_blended_rain_tropical`: a result comes out exactly when the lengths fit. -/
theorem C161_tropical_result_iff (P : TropParams α) (predef band : String) (dt : DType) (dz zdr kdp : List α) (cs fhc : Option (List Int)) :
    (∃ v, calcBlendedRainTropical1d P predef band dt dz zdr kdp cs fhc = .ok v) ↔ FitsTrop dz zdr kdp cs fhc := by
  constructor
  · rintro ⟨v, hv⟩
    obtain ⟨o, ho, -⟩ := ok_bind hv
    exact tropicalSizes_ok ho
  · rintro ⟨h1, h2, h3, h4⟩
    unfold calcBlendedRainTropical1d
    rw [tropicalSizes_fit P predef band dt h1 h2 h3 h4]
    exact ⟨_, rfl⟩

/-- the call's form of an optional class array of length `n` -/
def cls (n : Nat) (l : List Int) : Cls := .arr ⟨.int, [n], l⟩

/-- **C161.** `calc_blended_rain_tropical`: arrays that fit give what the call with Zdr and the rain types filled to the length of the reflectivity gives. -/
theorem C161_tropical_fit (P : TropParams α) (predef band : String) (dt t t' : DType) (dz zdr kdp : List α) (cs fhc : Option (List Int))
    (h : FitsTrop dz zdr kdp cs fhc) :
    calcBlendedRainTropical P predef band (some (.arr ⟨dt, [dz.length], dz⟩)) (some (.arr ⟨t, [dz.length], spread dz.length zdr⟩))
        (some (.arr ⟨t', [dz.length], kdp⟩)) ((cs.map (spread dz.length)).map (cls dz.length)) (fhc.map (cls dz.length)) =
      (calcBlendedRainTropical1d P predef band dt dz zdr kdp cs fhc).map some := by
  obtain ⟨h1, h2, h3, h4⟩ := h
  have hs := spread_length h2
  unfold calcBlendedRainTropical1d
  rw [tropicalSizes_fit P predef band dt h1 h2 h3 h4]
  have hl : (tropicalArr P predef band dt dz (spread dz.length zdr) kdp (cs.map (spread dz.length)) fhc).1.length = dz.length ∧
      (tropicalArr P predef band dt dz (spread dz.length zdr) kdp (cs.map (spread dz.length)) fhc).2.length = dz.length := by
    generalize spread dz.length zdr = z at hs
    cases cs with
    | none => cases fhc with
      | none => simp [tropicalArr, len_and, len_set, len_copy, len_inv, hs, h1]
      | some f => simp [tropicalArr, len_and, len_set, len_copy, len_inv, hs, h1, h4 f rfl]
    | some c =>
      have hc := spread_length (h3 c rfl)
      cases fhc with
      | none => simp [tropicalArr, len_and, len_set, len_copy, len_inv, hs, h1, hc]
      | some f => simp [tropicalArr, len_and, len_set, len_copy, len_inv, hs, h1, hc, h4 f rfl]
  simp only [except_ok, hl.1, hl.2]
  cases cs <;> cases fhc <;> simp [calcBlendedRainTropical, cls] <;> rfl

/-- one rain type beside two gates fits, one hydrometeor class does not -/
example : FitsTrop ([40, 30] : List Binary32) [1] [2, 0] (some [2]) none ∧ FitsTrop ([40, 30] : List Binary32) [1, nan] [2, 0] none (some [9, 2]) ∧
    ¬ FitsTrop ([40, 30] : List Binary32) [1, nan] [2, 0] none (some [9]) := by
  refine ⟨by simp [FitsTrop, OptSpreads], by simp [FitsTrop, OptSpreads], by simp [FitsTrop, OptSpreads]⟩

end Csu.Rain
