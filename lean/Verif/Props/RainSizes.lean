import Verif.Model.RainSizes
import Verif.Props.LiquidIceAny
import Verif.Props.Rain
import Verif.Binary
/-!
# Property C161: rain fields of different lengths

A call of a rain function with one-dimensional arrays of different lengths never returns a misaligned answer.
-/
namespace Csu.Rain
open Csu PyFloat Csu.Common Csu.LiquidIce
variable {α : Type} [PyFloat α]

/-- an array of one element acts as that element in all of `n` gates -/
def spread {β : Type} (n : Nat) (l : List β) : List β :=
  match l with
  | [x] => List.replicate n x
  | l => l

/-- length `n`, or one element -/
def Spreads {β : Type} (n : Nat) (l : List β) : Prop := l.length = n ∨ l.length = 1

theorem spread_self {β : Type} (l : List β) : spread l.length l = l := by
  unfold spread; split <;> simp

theorem spread_eq {β : Type} {n : Nat} {l : List β} (h : l.length = n) : spread n l = l := by subst h; exact spread_self l

theorem spread_length {β : Type} {n : Nat} {l : List β} (h : Spreads n l) : (spread n l).length = n := by
  rcases h with h | h
  · rw [spread_eq h, h]
  · obtain ⟨x, rfl⟩ := List.length_eq_one_iff.mp h
    simp [spread]

theorem spread_map {β γ : Type} (n : Nat) (f : β → γ) (l : List β) : spread n (l.map f) = (spread n l).map f := by
  match l with
  | [] => rfl
  | [x] => simp [spread]
  | x :: y :: l => rfl

theorem zip_rep {β γ δ : Type} (f : β → γ → δ) (y : γ) (l : List β) : List.zipWith f l (List.replicate l.length y) = l.map (f · y) := by
  induction l with
  | nil => rfl
  | cons a l ih => simp [List.replicate_succ, ih]

theorem rep_zip {β γ δ : Type} (f : β → γ → δ) (x : β) (l : List γ) : List.zipWith f (List.replicate l.length x) l = l.map (f x) := by
  induction l with
  | nil => rfl
  | cons a l ih => simp [List.replicate_succ, ih]

theorem bcast_spread {β γ δ : Type} (f : β → γ → δ) {n : Nat} {l : List β} {l' : List γ} (h : l.length = n) (h' : Spreads n l') :
    bcast f l l' = .ok (List.zipWith f l (spread n l')) := by
  by_cases e : l'.length = n
  · rw [spread_eq e]; exact bcast_eq f l l' (h.trans e.symm)
  · have e1 := h'.resolve_left e
    obtain ⟨y, rfl⟩ := List.length_eq_one_iff.mp e1
    unfold bcast
    rw [if_neg (by omega)]
    match l, h with
    | [], _ => rfl
    | [x], h => exact absurd h e
    | a :: b :: l, h =>
      subst h
      simp only [spread]
      rw [zip_rep]

theorem bcast_spread' {β γ δ : Type} (f : β → γ → δ) {n : Nat} {l : List β} {l' : List γ} (h : Spreads n l) (h' : l'.length = n) :
    bcast f l l' = .ok (List.zipWith f (spread n l) l') := by
  by_cases e : l.length = n
  · rw [spread_eq e]; exact bcast_eq f l l' (e.trans h'.symm)
  · have e1 := h.resolve_left e
    obtain ⟨y, rfl⟩ := List.length_eq_one_iff.mp e1
    unfold bcast
    rw [if_neg (by omega)]
    subst h'
    simp only [spread]
    rw [rep_zip]

theorem bcast_len {β γ δ : Type} {f : β → γ → δ} {l : List β} {l' : List γ} {r : List δ} (h : bcast f l l' = .ok r) :
    Spreads r.length l ∧ Spreads r.length l' := by
  unfold bcast at h
  split_ifs at h with e
  · cases h
    simp [Spreads, List.length_zipWith, e]
  · split at h <;> cases h <;> simp [Spreads]

theorem bcast_err {β γ δ : Type} {f : β → γ → δ} {l : List β} {l' : List γ} {e : PyErr} (h : bcast f l l' = .error e) : e = .valueError := by
  unfold bcast at h
  split_ifs at h
  split at h <;> cases h
  rfl

theorem andAny_eq {a b : List Bool} (h : a.length = b.length) : andAny a b = .ok (logicalAnd a b) := bcast_eq _ _ _ h
theorem orAny_eq {a b : List Bool} (h : a.length = b.length) : orAny a b = .ok (logicalOr a b) := bcast_eq _ _ _ h
theorem setAny_eq {β : Type} {m : List Bool} {v : β} {t : List β} (h : m.length = t.length) : maskSetAny m v t = .ok (maskSet m v t) := if_pos h
theorem copyAny_eq {β : Type} {m : List Bool} {s t : List β} (h : m.length = s.length ∧ m.length = t.length) :
    maskCopyAny m s t = .ok (maskCopy m s t) := if_pos h

theorem len_and (a b : List Bool) : (logicalAnd a b).length = min a.length b.length := by simp [logicalAnd]
theorem len_or (a b : List Bool) : (logicalOr a b).length = min a.length b.length := by simp [logicalOr]
theorem len_inv (a : List Bool) : (invert a).length = a.length := by simp [invert]
theorem len_set {β : Type} (m : List Bool) (v : β) (t : List β) : (maskSet m v t).length = min m.length t.length := by simp [maskSet]
theorem len_copy {β : Type} (m : List Bool) (s t : List β) : (maskCopy m s t).length = min m.length (min s.length t.length) := by simp [maskCopy]
theorem len_nexrad (l : List α) (t a b : α) : (calcRainNexrad l t a b).length = l.length := by simp [calcRainNexrad, maskSet]

/-- arrays of fitting lengths -/
theorem blendedSizes_fit (P : Params α) (band : String) (dt : DType) {dz zdr kdp : List α} (hk : kdp.length = dz.length)
    (hz : band = "S" → Spreads dz.length zdr) :
    blendedSizes P band dt dz zdr kdp = blendedArr P band dt dz (spread dz.length zdr) kdp := by
  by_cases hb : band = "S"
  · have hz := hz hb
    have h1 : ∀ {β δ : Type} (f : β → α → δ) (l : List β), l.length = dz.length → bcast f l zdr = .ok (List.zipWith f l (spread dz.length zdr)) :=
      fun f l h => bcast_spread f h hz
    have h2 : ∀ (l : List Bool) (p : α → Bool), l.length = dz.length → andAny l (zdr.map p) = .ok (logicalAnd l ((spread dz.length zdr).map p)) := by
      intro l p h
      rw [← spread_map]
      exact bcast_spread _ h (by simpa [Spreads] using hz)
    have h3 : ∀ (l : List Bool) (p : α → Bool), l.length = dz.length →
        andAny l (invert (zdr.map p)) = .ok (logicalAnd l (invert ((spread dz.length zdr).map p))) := by
      intro l p h
      simp only [invert, List.map_map]
      exact h2 l _ h
    have h4 : (spread dz.length zdr).length = dz.length := spread_length hz
    simp only [blendedSizes, blendedArr, if_pos hb]
    cases hr : rainLine P with
    | error e =>
      simp only [andAny_eq, h1, bcast_eq, except_ok, hk, h4, List.length_map, List.length_zipWith, min_self]
      rfl
    | ok ab =>
      simp only [andAny_eq, orAny_eq, setAny_eq, copyAny_eq, h1, h2, h3, bcast_eq, except_ok, hk, h4, List.length_map, List.length_zipWith, min_self,
        len_and, len_or, len_inv, len_set, len_copy, len_nexrad, and_self, calcZdp]
  · simp only [blendedSizes, blendedArr, if_neg hb, andAny_eq, setAny_eq, copyAny_eq, except_ok, hk, List.length_map, min_self,
        len_and, len_inv, len_set, len_copy, len_nexrad, and_self]

theorem copy_len {β : Type} {m : List Bool} {s t r : List β} (h : maskCopyAny m s t = .ok r) :
    m.length = s.length ∧ m.length = t.length ∧ r.length = t.length := by
  unfold maskCopyAny at h
  split_ifs at h with e
  cases h
  rw [len_copy]; omega

theorem set_len {β : Type} {m : List Bool} {v : β} {t r : List β} (h : maskSetAny m v t = .ok r) : m.length = t.length ∧ r.length = t.length := by
  unfold maskSetAny at h
  split_ifs at h with e
  cases h
  rw [len_set]; omega

/-- only arrays of fitting lengths give a result -/
theorem blendedSizes_ok {P : Params α} {band : String} {dt : DType} {dz zdr kdp : List α} {o : Out α} (h : blendedSizes P band dt dz zdr kdp = .ok o) :
    kdp.length = dz.length ∧ (band = "S" → Spreads dz.length zdr) := by
  unfold blendedSizes at h
  dsimp only at h
  obtain ⟨c0, -, h⟩ := ok_bind h
  by_cases hb : band = "S"
  · rw [if_pos hb] at h
    obtain ⟨rkz, h1, h⟩ := ok_bind h
    obtain ⟨rzz, -, h⟩ := ok_bind h
    obtain ⟨zv, -, h⟩ := ok_bind h
    obtain ⟨zd, -, h⟩ := ok_bind h
    obtain ⟨⟨fa, fb⟩, -, h⟩ := ok_bind h
    dsimp only at h
    obtain ⟨fi, -, h⟩ := ok_bind h
    obtain ⟨d1, -, h⟩ := ok_bind h
    obtain ⟨d2, -, h⟩ := ok_bind h
    obtain ⟨d3, -, h⟩ := ok_bind h
    obtain ⟨d4, -, h⟩ := ok_bind h
    obtain ⟨d5, -, h⟩ := ok_bind h
    obtain ⟨d6, -, h⟩ := ok_bind h
    obtain ⟨d7, -, h⟩ := ok_bind h
    obtain ⟨d8, -, h⟩ := ok_bind h
    obtain ⟨d9, -, h⟩ := ok_bind h
    obtain ⟨m1, s1, h⟩ := ok_bind h
    obtain ⟨r1, q1, h⟩ := ok_bind h
    obtain ⟨m2, s2, h⟩ := ok_bind h
    obtain ⟨r2, q2, h⟩ := ok_bind h
    obtain ⟨m3, s3, h⟩ := ok_bind h
    obtain ⟨r3, q3, h⟩ := ok_bind h
    obtain ⟨m4, s4, h⟩ := ok_bind h
    obtain ⟨r4, q4, h⟩ := ok_bind h
    have s1 := set_len s1
    have q1 := copy_len q1
    have q2 := copy_len q2
    have q3 := copy_len q3
    have q4 := copy_len q4
    have w := (bcast_len h1).2
    simp only [List.length_map] at s1 q1 q2 q3 q4
    refine ⟨by omega, fun _ => ?_⟩
    rwa [show rkz.length = dz.length by omega] at w
  · rw [if_neg hb] at h
    obtain ⟨m1, s1, h⟩ := ok_bind h
    obtain ⟨r1, q1, h⟩ := ok_bind h
    have q1 := copy_len q1
    simp only [List.length_map] at q1
    exact ⟨by omega, fun hs => absurd hs hb⟩

/-- what the lengths must be for a rain rate to come out: Kdp has the length of the reflectivity; at S band Zdr too, or one element -/
def Fits (band : String) (dz zdr kdp : List α) : Prop := kdp.length = dz.length ∧ (band = "S" → zdr.length = dz.length ∨ zdr.length = 1)

theorem except_cases {β : Type} (x : Except PyErr β) : (∃ y, x = .ok y) ∨ ∃ e, x = .error e := by
  cases x with
  | ok y => exact .inl ⟨y, rfl⟩
  | error e => exact .inr ⟨e, rfl⟩

/-- **C161.** One-dimensional arrays that do not fit raise an exception, whatever they contain. -/
theorem C161_unfit_raises (P : Params α) (band : String) (ice : Bool) (dt : DType) (dz zdr kdp : List α) (h : ¬ Fits band dz zdr kdp) :
    ∃ e, calcBlendedRain1d P band ice dt dz zdr kdp = .error e := by
  rcases except_cases (blendedSizes P band dt dz zdr kdp) with ⟨o, ho⟩ | ⟨e, he⟩
  · exact absurd (blendedSizes_ok ho) h
  · exact ⟨e, by unfold calcBlendedRain1d; rw [he]; rfl⟩

theorem blendedArr_other_zdr (P : Params α) {band : String} (hb : band ≠ "S") (dt : DType) (dz z z' kdp : List α) :
    blendedArr P band dt dz z kdp = blendedArr P band dt dz z' kdp := by
  simp only [blendedArr, if_neg hb]

theorem blendedArr_len {P : Params α} {band : String} {dt : DType} {dz z kdp : List α} (hz : z.length = dz.length) (hk : kdp.length = dz.length) {o : Out α}
    (h : blendedArr P band dt dz z kdp = .ok o) : o.rain.length = dz.length ∧ o.meth.length = dz.length ∧
      ∀ p, o.ice = some p → p.1.length = dz.length ∧ p.2.length = dz.length := by
  obtain ⟨gs, h1, h2, h3⟩ := exists_gates3 dz z kdp hz.symm hk.symm
  have hl : gs.length = dz.length := by rw [← h1]; simp
  by_cases hb : band = "S"
  · subst hb
    cases hr : rainLine P with
    | error e =>
      simp only [blendedArr, if_true, hr] at h
      cases h
    | ok ab =>
      have := blendedArr_S P ab.1 ab.2 hr dt gs
      rw [h1, h2, h3] at this
      rw [this] at h
      cases h
      refine ⟨by simp [hl], by simp [hl], ?_⟩
      rintro p hp
      cases hp
      simp [hl]
  · have := blendedArr_other P band hb dt 0 0 gs
    rw [h1, h2, h3] at this
    rw [this] at h
    cases h
    refine ⟨by simp [hl], by simp [hl], ?_⟩
    rintro p hp
    cases hp

/-- **C161.** One-dimensional arrays that fit give what the call with Zdr filled to the length of the reflectivity gives; at other bands than S the contents
and the length of Zdr have no influence. -/
theorem C161_fit (P : Params α) (band : String) (ice : Bool) (dt t t' : DType) (dz zdr kdp z' : List α) (h : Fits band dz zdr kdp)
    (hz : z'.length = dz.length) (hz' : band = "S" → z' = spread dz.length zdr) :
    calcBlendedRain P band ice (some (.arr ⟨dt, [dz.length], dz⟩)) (some (.arr ⟨t, [dz.length], z'⟩)) (some (.arr ⟨t', [dz.length], kdp⟩)) =
      (calcBlendedRain1d P band ice dt dz zdr kdp).map some := by
  have e : blendedSizes P band dt dz zdr kdp = blendedArr P band dt dz z' kdp := by
    rw [blendedSizes_fit P band dt h.1 h.2]
    by_cases hb : band = "S"
    · rw [hz' hb]
    · exact blendedArr_other_zdr P hb dt dz _ _ kdp
  unfold calcBlendedRain1d
  rw [e]
  simp only [calcBlendedRain, and_self, if_true]
  rcases except_cases (blendedArr P band dt dz z' kdp) with ⟨o, ho⟩ | ⟨e, he⟩
  · obtain ⟨l1, l2, l3⟩ := blendedArr_len hz h.1 ho
    rw [ho]
    simp only [except_ok, l1, l2]
    split_ifs
    · rfl
    · cases hi : o.ice with
      | none => rfl
      | some p =>
        obtain ⟨a, b⟩ := p
        obtain ⟨l4, l5⟩ := l3 _ hi
        dsimp only at l4 l5 ⊢
        rw [l4, l5]
        rfl
  · rw [he]
    rfl

/-- **C161.** A result comes out exactly when the lengths fit (unless `fit_a` is given without `fit_b`). -/
theorem C161_result_iff (P : Params α) (band : String) (ice : Bool) (dt : DType) (dz zdr kdp : List α) (hP : P.fitA = none ∨ P.fitB.isSome = true) :
    (∃ v, calcBlendedRain1d P band ice dt dz zdr kdp = .ok v) ↔ Fits band dz zdr kdp := by
  constructor
  · rintro ⟨v, hv⟩
    obtain ⟨o, ho, -⟩ := ok_bind hv
    exact blendedSizes_ok ho
  · intro h
    have hr : ∃ ab, rainLine P = .ok ab := by
      unfold rainLine
      rcases hP with hP | hP
      · rw [hP]; exact ⟨_, rfl⟩
      · obtain ⟨b, hb⟩ := Option.isSome_iff_exists.mp hP
        rw [hb]
        cases P.fitA <;> exact ⟨_, rfl⟩
    obtain ⟨ab, hr⟩ := hr
    have hs : ∃ o, blendedSizes P band dt dz zdr kdp = .ok o ∧ (band = "S" → ∃ p, o.ice = some p) := by
      rw [blendedSizes_fit P band dt h.1 h.2]
      by_cases hb : band = "S"
      · subst hb
        obtain ⟨gs, h1, h2, h3⟩ := exists_gates3 dz (spread dz.length zdr) kdp (spread_length (h.2 rfl)).symm h.1.symm
        have := blendedArr_S P ab.1 ab.2 hr dt gs
        rw [h1, h2, h3] at this
        exact ⟨_, this, fun _ => ⟨_, rfl⟩⟩
      · simp only [blendedArr, if_neg hb]
        exact ⟨_, rfl, fun h => absurd h hb⟩
    obtain ⟨o, ho, hi⟩ := hs
    unfold calcBlendedRain1d
    rw [ho]
    simp only [except_ok]
    by_cases hc : (!ice || decide (band ≠ "S")) = true
    · rw [if_pos hc]; exact ⟨_, rfl⟩
    · rw [if_neg hc]
      have hb : band = "S" := by simp at hc; exact hc.2
      obtain ⟨p, hp⟩ := hi hb
      rw [hp]
      exact ⟨_, rfl⟩

theorem orAny_map {ι : Type} (l : List ι) (p q : ι → Bool) : orAny (l.map p) (l.map q) = .ok (l.map fun g => p g || q g) := by
  rw [orAny_eq (by simp), logicalOr_map]

/-- arrays of fitting lengths -/
theorem hidroSizes_fit (P : Params α) (band : String) (dt : DType) {dz zdr kdp : List α} {fhc : List Int} (hk : kdp.length = dz.length)
    (hf : Spreads dz.length fhc) (hz : band = "S" → Spreads dz.length zdr) :
    hidroSizes P band dt dz zdr kdp fhc = .ok (hidroArr P band dt dz (spread dz.length zdr) kdp (spread dz.length fhc)) := by
  have f1 : ∀ (l : List Bool) (p : Int → Bool), l.length = dz.length → andAny (fhc.map p) l = .ok (logicalAnd ((spread dz.length fhc).map p) l) := by
    intro l p h
    rw [← spread_map]
    exact bcast_spread' _ (by simpa [Spreads] using hf) h
  have f2 : ∀ (l : List Bool) (p : Int → Bool), l.length = dz.length → andAny l (fhc.map p) = .ok (logicalAnd l ((spread dz.length fhc).map p)) := by
    intro l p h
    rw [← spread_map]
    exact bcast_spread _ h (by simpa [Spreads] using hf)
  have f4 : (spread dz.length fhc).length = dz.length := spread_length hf
  by_cases hb : band = "S"
  · have hz := hz hb
    have h1 : ∀ {β δ : Type} (f : β → α → δ) (l : List β), l.length = dz.length → bcast f l zdr = .ok (List.zipWith f l (spread dz.length zdr)) :=
      fun f l h => bcast_spread f h hz
    have h2 : ∀ (l : List Bool) (p : α → Bool), l.length = dz.length → andAny l (zdr.map p) = .ok (logicalAnd l ((spread dz.length zdr).map p)) := by
      intro l p h
      rw [← spread_map]
      exact bcast_spread _ h (by simpa [Spreads] using hz)
    have h4 : (spread dz.length zdr).length = dz.length := spread_length hz
    simp only [hidroSizes, hidroArr, if_pos hb, orAny_map, logicalOr_map, invert_map, f1, f2, andAny_eq, orAny_eq, setAny_eq, copyAny_eq, h1, h2, except_ok, hk, h4, f4,
      List.length_map, List.length_zipWith, min_self, len_and, len_or, len_inv, len_set, len_copy, len_nexrad, and_self]
    rfl
  · simp only [hidroSizes, hidroArr, if_neg hb, orAny_map, logicalOr_map, invert_map, f1, f2, andAny_eq, setAny_eq, copyAny_eq, except_ok, hk, f4, List.length_map,
      min_self, len_and, len_inv, len_set, len_copy, len_nexrad, and_self]
    rfl

/-- only arrays of fitting lengths give a result -/
theorem hidroSizes_ok {P : Params α} {band : String} {dt : DType} {dz zdr kdp : List α} {fhc : List Int} {o : List α × List Int}
    (h : hidroSizes P band dt dz zdr kdp fhc = .ok o) :
    kdp.length = dz.length ∧ Spreads dz.length fhc ∧ (band = "S" → Spreads dz.length zdr) := by
  unfold hidroSizes at h
  simp only [orAny_map, except_ok] at h
  obtain ⟨c0, -, h⟩ := ok_bind h
  obtain ⟨cik, -, h⟩ := ok_bind h
  by_cases hb : band = "S"
  · rw [if_pos hb] at h
    obtain ⟨rzz, -, h⟩ := ok_bind h
    obtain ⟨rkz, h1, h⟩ := ok_bind h
    obtain ⟨d1, -, h⟩ := ok_bind h
    obtain ⟨d2, -, h⟩ := ok_bind h
    obtain ⟨d3, -, h⟩ := ok_bind h
    obtain ⟨d4, -, h⟩ := ok_bind h
    obtain ⟨d5, h5, h⟩ := ok_bind h
    obtain ⟨d6, -, h⟩ := ok_bind h
    obtain ⟨d7, -, h⟩ := ok_bind h
    obtain ⟨d8, -, h⟩ := ok_bind h
    obtain ⟨d9, -, h⟩ := ok_bind h
    obtain ⟨d10, -, h⟩ := ok_bind h
    obtain ⟨m1, s1, h⟩ := ok_bind h
    obtain ⟨r1, q1, h⟩ := ok_bind h
    obtain ⟨m2, s2, h⟩ := ok_bind h
    obtain ⟨r2, q2, h⟩ := ok_bind h
    obtain ⟨m3, s3, h⟩ := ok_bind h
    obtain ⟨r3, q3, h⟩ := ok_bind h
    have q1 := copy_len q1
    have q2 := copy_len q2
    have q3 := copy_len q3
    have w := (bcast_len h1).2
    have v := (bcast_len h5).1
    simp only [List.length_map] at q1 q2 q3
    rw [show rkz.length = dz.length by omega] at w
    rw [show d5.length = dz.length by omega] at v
    exact ⟨by omega, by simpa [Spreads] using v, fun _ => w⟩
  · rw [if_neg hb] at h
    obtain ⟨c4, h4, h⟩ := ok_bind h
    obtain ⟨c5, -, h⟩ := ok_bind h
    obtain ⟨m1, s1, h⟩ := ok_bind h
    obtain ⟨r1, t1, h⟩ := ok_bind h
    obtain ⟨m2, s2, h⟩ := ok_bind h
    obtain ⟨r2, q2, h⟩ := ok_bind h
    obtain ⟨m3, s3, h⟩ := ok_bind h
    obtain ⟨r3, q3, h⟩ := ok_bind h
    have t1 := set_len t1
    have q2 := copy_len q2
    have q3 := copy_len q3
    have v := (bcast_len h4).2
    simp only [List.length_map] at t1 q2 q3
    rw [show c4.length = dz.length by omega] at v
    exact ⟨by omega, by simpa [Spreads] using v, fun hs => absurd hs hb⟩

/-- the same with classes: their array has the length of the reflectivity, or one element -/
def FitsHidro (band : String) (dz zdr kdp : List α) (fhc : List Int) : Prop :=
  Fits band dz zdr kdp ∧ (fhc.length = dz.length ∨ fhc.length = 1)

/-- **C161.** `csu_hidro_rain`: a result comes out exactly when the lengths fit. -/
theorem C161_hidro_result_iff (P : Params α) (band : String) (dt : DType) (dz zdr kdp : List α) (fhc : List Int) :
    (∃ v, csuHidroRain1d P band dt dz zdr kdp fhc = .ok v) ↔ FitsHidro band dz zdr kdp fhc := by
  constructor
  · rintro ⟨v, hv⟩
    obtain ⟨o, ho, -⟩ := ok_bind hv
    obtain ⟨h1, h2, h3⟩ := hidroSizes_ok ho
    exact ⟨⟨h1, h3⟩, h2⟩
  · rintro ⟨⟨h1, h3⟩, h2⟩
    unfold csuHidroRain1d
    rw [hidroSizes_fit P band dt h1 h2 h3]
    exact ⟨_, rfl⟩

theorem hidroArr_other_zdr (P : Params α) {band : String} (hb : band ≠ "S") (dt : DType) (dz z z' kdp : List α) (f : List Int) :
    hidroArr P band dt dz z kdp f = hidroArr P band dt dz z' kdp f := by
  simp only [hidroArr, if_neg hb]

theorem hidroArr_len (P : Params α) (band : String) (dt : DType) {dz z kdp : List α} {f : List Int} (hz : z.length = dz.length) (hk : kdp.length = dz.length)
    (hf : f.length = dz.length) : (hidroArr P band dt dz z kdp f).1.length = dz.length ∧ (hidroArr P band dt dz z kdp f).2.length = dz.length := by
  obtain ⟨gs, h1, h2, h3, h4⟩ := exists_gates4 dz z kdp f hz.symm hk.symm hf.symm
  have hl : gs.length = dz.length := by rw [← h1]; simp
  by_cases hb : band = "S"
  · subst hb
    have := hidroArr_S P dt gs 0 0
    rw [h1, h2, h3, h4] at this
    rw [this]
    simp [hl]
  · have := hidroArr_other P band hb dt gs 0 0
    rw [h1, h2, h3, h4] at this
    rw [this]
    simp [hl]

/-- **C161.** `csu_hidro_rain`: arrays that fit give what the call with Zdr and the classes filled to the length of the reflectivity gives. -/
theorem C161_hidro_fit (P : Params α) (band : String) (dt t t' t'' : DType) (dz zdr kdp z' : List α) (fhc : List Int) (h : FitsHidro band dz zdr kdp fhc)
    (hz : z'.length = dz.length) (hz' : band = "S" → z' = spread dz.length zdr) :
    csuHidroRain P band (some (.arr ⟨dt, [dz.length], dz⟩)) (some (.arr ⟨t, [dz.length], z'⟩)) (some (.arr ⟨t', [dz.length], kdp⟩))
        (some (.arr ⟨t'', [dz.length], spread dz.length fhc⟩)) =
      (csuHidroRain1d P band dt dz zdr kdp fhc).map some := by
  obtain ⟨⟨h1, h3⟩, h2⟩ := h
  have e : hidroSizes P band dt dz zdr kdp fhc = .ok (hidroArr P band dt dz z' kdp (spread dz.length fhc)) := by
    rw [hidroSizes_fit P band dt h1 h2 h3]
    by_cases hb : band = "S"
    · rw [hz' hb]
    · rw [hidroArr_other_zdr P hb dt dz _ z' kdp]
  obtain ⟨l1, l2⟩ := hidroArr_len P band dt hz h1 (spread_length h2)
  unfold csuHidroRain1d
  rw [e]
  simp only [except_ok, l1, l2, csuHidroRain, and_self, if_true]
  rfl

/-- one Zdr beside two gates fits, one Kdp beside two gates does not, and at X band even an empty Zdr fits -/
example : Fits "S" ([40, 30] : List Binary32) [1] [2, 0] ∧ ¬ Fits "S" ([40, 30] : List Binary32) [1, 1] [2] ∧
    Fits "X" ([40, 30] : List Binary32) [] [2, 0] ∧ FitsHidro "S" ([40, 30] : List Binary32) [1] [2, 0] [2] ∧
    spread 2 ([1] : List Binary32) = [1, 1] := by
  refine ⟨by simp [Fits], by simp [Fits], by simp [Fits], by simp [FitsHidro, Fits], rfl⟩

end Csu.Rain
