import Verif.Model.Fhc
import Verif.Props.Traps
/-! # The array code of the classifiers, gate by gate (any arithmetic) -/
namespace Csu.Fhc
open Csu PyFloat Tables
variable {α : Type} [PyFloat α]

theorem mapM_ok {ι β ε : Type} {F : ι → Except ε β} {G : ι → β} (l : List ι) (h : ∀ k ∈ l, F k = .ok (G k)) :
    l.mapM F = .ok (l.map G) := by
  induction l with
  | nil => rfl
  | cons x xs ih =>
    rw [List.mapM_cons, h x (by simp), ih (fun k hk => h k (by simp [hk]))]
    rfl

theorem mapM_error {ι β ε : Type} {F : ι → Except ε β} (x : ι) (xs : List ι) (e : ε) (h : F x = .error e) :
    (x :: xs).mapM F = .error e := by
  rw [List.mapM_cons, h]; rfl

/-- value of the trapezoid of species `c` at one element -/
def trapVal (c : Nat) (x : α) : α := ((Traps.getHidTraps (c : Int) .float [x]).getD []).headD PyFloat.nan

theorem trap_map (c : Nat) (hc : c < 10) (xs : List α) :
    Traps.getHidTraps (c : Int) .float xs = some (xs.map (trapVal c)) := by
  obtain ⟨f, hf⟩ := Traps.gatewise (α := α) c hc .float
  have : f = trapVal c := by
    funext x; simp [trapVal, hf]
  rw [hf, this]

/-- membership of species `c` in variable `k` at one gate -/
def gMember (S : Sets α) (c : Nat) (k : Key) (g : Key → α) : α :=
  match (S k).bind (fun rows => rows[c]?) with
  | some r => beta r (g k)
  | none => PyFloat.nan

/-- the term of variable `k` in the sum of `polTest` -/
def gTerm (C : Cfg α) (c : Nat) (g : Key → α) (k : Key) : α :=
  if C.trap ∧ k = .T then trapVal c (g .T) else PyFloat.ofNat (C.vars k) * C.w k c * gMember C.sets c k g

/-- `polTest` at one gate -/
def gPol (C : Cfg α) (c : Nat) (g : Key → α) : α := npSum ((usedKeys C).map (gTerm C c g)) / weightSum C c

/-- `testFor` at one gate -/
def gScore (C : Cfg α) (c : Nat) (g : Key → α) : α :=
  if C.hybrid then
    if polFlag C then
      if C.useTemp then gPol C c g * gMember C.sets c .T g * gMember C.sets c .DZ g
      else gPol C c g * gMember C.sets c .DZ g
    else if C.useTemp then gMember C.sets c .T g * gMember C.sets c .DZ g
    else gMember C.sets c .DZ g
  else gPol C c g

theorem sumAxis0_map {γ ι : Type} (gs : List γ) (keys : List ι) (f : ι → γ → α) :
    sumAxis0 gs.length (keys.map (fun k => gs.map (f k))) =
      .ok (gs.map (fun g => npSum (keys.map (fun k => f k g)))) := by
  have h1 : (keys.map (fun k => gs.map (f k))).all (fun r => r.length == gs.length) = true := by
    simp
  have h2 : ∀ (keys : List ι) (acc : γ → α),
      (keys.map (fun k => gs.map (f k))).foldl (fun acc r => List.zipWith (· + ·) acc r) (gs.map acc) =
        gs.map (fun g => (keys.map (fun k => f k g)).foldl (· + ·) (acc g)) := by
    intro keys
    induction keys with
    | nil => intro acc; rfl
    | cons k ks ih =>
      intro acc
      simp only [List.map_cons, List.foldl_cons, zipWith_map_map]
      exact ih _
  have h3 : List.replicate gs.length (0 : α) = gs.map (fun _ => 0) := by simp
  rw [sumAxis0, if_pos h1, h3, h2]
  rfl

/-- What the scoring loop needs at species `c`, for gates `gs` and supplied variables `P`. -/
structure Ready (C : Cfg α) (P : Key → Bool) (gs : List (Key → α)) (c : Nat) : Prop where
  data : ∀ k, C.data k = if P k then some (gs.map (fun g => g k)) else none
  sz : C.sz = gs.length
  set : ∀ k, P k = true → (k = .T → C.useTemp = true) →
    ∃ rows r, C.sets k = some rows ∧ rows[c]? = some r ∧ (r.a ==. 0) = false
  dz : P .DZ = true
  vdz : C.vars .DZ ≠ 0
  temp : C.useTemp = true → P .T = true
  lin : C.hybrid = false → polFlag C = true
  linT : C.hybrid = false → P .T = true → C.useTemp = true ∨ C.trap = true
  trap : C.trap = true → c < 10

variable {C : Cfg α} {P : Key → Bool} {gs : List (Key → α)} {c : Nat}

theorem member_ok (h : Ready C P gs c) (k : Key) (hk : P k = true) (hT : k = .T → C.useTemp = true) :
    member C k c = .ok (gs.map (gMember C.sets c k)) := by
  obtain ⟨rows, r, h1, h2, h3⟩ := h.set k hk hT
  have hd := h.data k
  rw [if_pos hk] at hd
  have hg : ∀ g : Key → α, gMember C.sets c k g = beta r (g k) := by
    intro g; simp [gMember, h1, h2]
  simp only [member, hd, h1, h2, hidBetaF, h.sz, h3]
  by_cases h0 : gs.length = 0
  · have : gs = [] := List.eq_nil_of_length_eq_zero h0
    simp [this]
  · rw [if_neg h0]
    rw [if_neg (by simp), if_neg (by simp), List.take_of_length_le (by simp), List.map_map]
    congr 1
    apply List.map_congr_left
    intro g _
    simp [hg]

theorem mem_varlist_hybrid {k : Key} (h : k ∈ varlist true) : k ≠ .T ∧ k ≠ .DZ := by
  simp only [varlist, if_true, List.mem_cons, List.not_mem_nil, or_false] at h
  rcases h with rfl | rfl | rfl | rfl <;> simp

theorem mem_usedKeys (h : Ready C P gs c) {k : Key} (hk : k ∈ usedKeys C) :
    P k = true ∧ k ∈ varlist C.hybrid := by
  rw [usedKeys, List.mem_filter, h.data] at hk
  refine ⟨?_, hk.1⟩
  by_contra hc
  simp [hc] at hk

theorem polTest_ok (h : Ready C P gs c) : polTest C c = .ok (gs.map (gPol C c)) := by
  have hw : ∀ k ∈ usedKeys C, (C.trap = true → k ≠ .T) →
      weighted C k c = .ok (gs.map (fun g => gTerm C c g k)) := by
    intro k hk hkT
    obtain ⟨hP, hv⟩ := mem_usedKeys h hk
    have hT : k = .T → C.useTemp = true := by
      intro hk'
      subst hk'
      by_cases hh : C.hybrid = true
      · rw [hh] at hv; exact absurd rfl (mem_varlist_hybrid hv).1
      · rcases h.linT (by simpa using hh) hP with h1 | h1
        · exact h1
        · exact absurd rfl (hkT h1)
    have hne : ¬ (C.trap = true ∧ k = .T) := fun hc => hkT hc.1 hc.2
    simp [weighted, member_ok h k hP hT, bind, Except.bind, gTerm, hne, Function.comp_def]
  unfold polTest
  by_cases ht : C.trap = true
  · rw [if_pos ht, calculateTestTrap]
    have : (usedKeys C).mapM (trapRow C c) = .ok ((usedKeys C).map (fun k => gs.map (fun g => gTerm C c g k))) := by
      apply mapM_ok
      intro k hk
      unfold trapRow
      by_cases hkT : k = .T
      · subst hkT
        have hd := h.data .T
        rw [if_pos (mem_usedKeys h hk).1] at hd
        simp [hd, trap_map c (h.trap ht), gTerm, ht, Function.comp_def]
      · rw [if_neg hkT, hw k hk (fun _ => hkT)]
    rw [this]
    simp only [bind, Except.bind, h.sz, sumAxis0_map, List.map_map]
    rfl
  · rw [if_neg ht, calculateTest]
    rw [mapM_ok (G := fun k => gs.map (fun g => gTerm C c g k)) _ (fun k hk => hw k hk (fun h => absurd h ht))]
    simp only [bind, Except.bind, h.sz, sumAxis0_map, List.map_map]
    rfl

theorem mulArr_map (f g : (Key → α) → α) : mulArr (gs.map f) (gs.map g) = gs.map (fun x => f x * g x) := by
  simp [mulArr]

theorem testFor_ok (h : Ready C P gs c) : testFor C c = .ok (gs.map (gScore C c)) := by
  have hD := member_ok h .DZ h.dz (by simp)
  unfold testFor gScore
  by_cases hh : C.hybrid = true
  · by_cases hp : polFlag C = true
    · by_cases hT : C.useTemp = true
      · simp [hh, hp, hT, polTest_ok h, hD, member_ok h .T (h.temp hT) (fun _ => hT), bind, Except.bind, h.vdz,
          mulArr_map]
      · simp [hh, hp, hT, polTest_ok h, hD, bind, Except.bind, h.vdz, mulArr_map]
    · by_cases hT : C.useTemp = true
      · simp [hh, hp, hT, hD, member_ok h .T (h.temp hT) (fun _ => hT), bind, Except.bind, h.vdz, mulArr_map]
      · simp [hh, hp, hT, hD, bind, Except.bind, h.vdz]
  · have := h.lin (by simpa using hh)
    simp [hh, this, polTest_ok h]

/-- category of one gate -/
def gHid (C : Cfg α) (types : List Nat) (g : Key → α) : Nat := argmaxPlus1 (types.map (fun c => gScore C c g))

theorem getTestList_ok (types : List Nat) (h : ∀ c ∈ types, Ready C P gs c) :
    getTestList C types = .ok (types.map (fun c => gs.map (gScore C c))) :=
  mapM_ok _ (fun c hc => testFor_ok (h c hc))

theorem classify_map {γ ι : Type} (gs : List γ) (types : List ι) (f : ι → γ → α) :
    classify gs.length (types.map (fun c => gs.map (f c))) =
      gs.map (fun g => argmaxPlus1 (types.map (fun c => f c g))) := by
  apply List.ext_getElem
  · simp [classify]
  · intro i h1 h2
    simp only [classify, List.length_map, List.length_range] at h1
    simp only [classify, column, List.getElem_map, List.getElem_range, List.map_map]
    congr 1
    apply List.map_congr_left
    intro c _
    simp [h1]

end Csu.Fhc
