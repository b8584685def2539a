import Verif.Spec.Csv
import Verif.Lemmas.Csv
import Mathlib.Tactic.Ring
import Mathlib.Tactic.NormNum
import Mathlib.Tactic.FieldSimp
/-!
# The parser reads what the specification writes
-/
namespace Csu.Csv
open Csu PyFloat Tables Fhc CsvSpec

/-! ## Splitting -/

theorem splitAtP_clean (p : Char → Bool) (l : List Char) (h : ∀ c ∈ l, p c = false) : splitAtP p l = [l] := by
  induction l with
  | nil => rfl
  | cons c cs ih =>
    rw [splitAtP, h c (by simp), ih (fun c hc => h c (by simp [hc]))]; rfl

theorem splitAtP_sep (p : Char → Bool) (l : List Char) (s : Char) (r : List Char) (h : ∀ c ∈ l, p c = false)
    (hs : p s = true) : splitAtP p (l ++ s :: r) = l :: splitAtP p r := by
  induction l with
  | nil => rw [List.nil_append, splitAtP, hs]; rfl
  | cons c cs ih =>
    rw [List.cons_append, splitAtP, h c (by simp), ih (fun c hc => h c (by simp [hc]))]; rfl

theorem split_line (r : List String) (hr : r ≠ []) (h : ∀ c ∈ r, Plain c) :
    splitAtP (· == ',') (lineText r) = r.map String.toList := by
  have clean : ∀ c : String, Plain c → ∀ x ∈ c.toList, (x == ',') = false := by
    intro c hc x hx
    rw [beq_eq_false_iff_ne]; rintro rfl; exact hc.1 hx
  induction r with
  | nil => exact absurd rfl hr
  | cons c cs ih =>
    cases cs with
    | nil => exact splitAtP_clean _ _ (clean c (h c (by simp)))
    | cons d ds =>
      rw [lineText, splitAtP_sep _ _ _ _ (clean c (h c (by simp))) (by rfl),
        ih (by simp) (fun c hc => h c (by simp [hc]))]
      rfl

theorem mem_lineText {r : List String} {x : Char} (h : x ∈ lineText r) : x = ',' ∨ ∃ c ∈ r, x ∈ c.toList := by
  induction r with
  | nil => cases h
  | cons c cs ih =>
    cases cs with
    | nil => exact Or.inr ⟨c, by simp, h⟩
    | cons d ds =>
      rw [lineText, List.mem_append, List.mem_cons] at h
      rcases h with h | h | h
      · exact Or.inr ⟨c, by simp, h⟩
      · exact Or.inl h
      · rcases ih h with h | ⟨e, he, hx⟩
        · exact Or.inl h
        · exact Or.inr ⟨e, by simp [he], hx⟩

theorem comma_mem {r : List String} (h : 2 ≤ r.length) : ',' ∈ lineText r := by
  match r, h with
  | c :: d :: cs, _ => rw [lineText]; simp

/-- end-of-line characters -/
def isEol (c : Char) : Bool := c == '\n' || c == '\r'

/-- not a blank line -/
def solid (l : List Char) : Bool := !l.all isBlank

theorem lines_of (eol : List Char) (he : LineEnd eol) (rs : List (List String)) (h2 : ∀ r ∈ rs, 2 ≤ r.length)
    (hp : ∀ r ∈ rs, ∀ c ∈ r, Plain c) :
    (splitAtP isEol ((rs.map (fun r => lineText r ++ eol)).flatten)).filter solid = rs.map lineText := by
  induction rs with
  | nil => rfl
  | cons r rs ih =>
    have hc : ∀ x ∈ lineText r, isEol x = false := by
      intro x hx
      unfold isEol
      rcases mem_lineText hx with rfl | ⟨c, hc, hx⟩
      · rfl
      · obtain ⟨_, h1, h3, _⟩ := hp r (by simp) c hc
        rw [Bool.or_eq_false_iff, beq_eq_false_iff_ne, beq_eq_false_iff_ne]
        exact ⟨fun e => h1 (e ▸ hx), fun e => h3 (e ▸ hx)⟩
    have hs : solid (lineText r) = true := by
      unfold solid
      have : (lineText r).all isBlank = false := by
        rw [List.all_eq_false]
        exact ⟨',', comma_mem (h2 r (by simp)), by decide⟩
      rw [this]; rfl
    have ih := ih (fun r hr => h2 r (by simp [hr])) (fun r hr => hp r (by simp [hr]))
    rw [List.map_cons, List.flatten_cons, List.append_assoc]
    rcases he with rfl | rfl
    · rw [List.cons_append, List.nil_append, splitAtP_sep _ _ _ _ hc (by decide), List.filter_cons, hs, ih]
      rfl
    · rw [List.cons_append, List.cons_append, List.nil_append, splitAtP_sep _ _ _ _ hc (by decide), List.filter_cons, hs]
      have e : ∀ rest, splitAtP isEol ('\n' :: rest) = [] :: splitAtP isEol rest := by
        intro rest; rw [splitAtP, if_pos (by decide)]
      rw [e, List.filter_cons, show solid [] = false from rfl]
      simp only [if_true, Bool.false_eq_true, if_false, List.map_cons, ih]

theorem no_quote (eol : List Char) (he : LineEnd eol) (rs : List (List String))
    (hp : ∀ r ∈ rs, ∀ c ∈ r, Plain c) : '"' ∉ (rs.map (fun r => lineText r ++ eol)).flatten := by
  intro h
  rw [List.mem_flatten] at h
  obtain ⟨l, hl, hx⟩ := h
  obtain ⟨r, hr, rfl⟩ := List.mem_map.mp hl
  rcases List.mem_append.mp hx with h | h
  · rcases mem_lineText h with h | ⟨c, hc, hx⟩
    · exact absurd h (by decide)
    · exact (hp r hr c hc).2.2.2 hx
  · rcases he with rfl | rfl <;> simp at h

/-- a sheet is read as its cells -/
theorem parse_sheet {F : Sheet} (hF : F.Valid) {eol : List Char} (he : LineEnd eol) :
    readCsv (F.text eol) = .ok ⟨F.header.map String.toList, F.rows.map (fun r => r.map String.toList)⟩ := by
  have hp : ∀ r ∈ F.header :: F.rows, ∀ c ∈ r, Plain c := by
    intro r hr c hc
    rcases List.mem_cons.mp hr with rfl | hr
    · exact hF.plainHeader c hc
    · exact hF.plain r hr c hc
  have h2 : ∀ r ∈ F.header :: F.rows, 2 ≤ r.length := by
    intro r hr
    rcases List.mem_cons.mp hr with rfl | hr
    · exact hF.wide
    · rw [hF.rect r hr]; exact hF.wide
  have hne : ∀ r ∈ F.header :: F.rows, r ≠ [] := fun r hr e => by
    have := h2 r hr; rw [e] at this; simp at this
  unfold readCsv parseCsv Sheet.text
  rw [String.toList_ofList, if_neg (no_quote eol he _ hp)]
  have hl := lines_of eol he _ h2 hp
  unfold isEol solid at hl
  rw [hl]
  rw [List.map_cons]
  dsimp only
  have hh : splitAtP (· == ',') (lineText F.header) = F.header.map String.toList :=
    split_line _ (hne _ (by simp)) (hp _ (by simp))
  have hr : (F.rows.map lineText).map (splitAtP (· == ',')) = F.rows.map (fun r => r.map String.toList) := by
    rw [List.map_map]
    apply List.map_congr_left
    intro r hr
    exact split_line r (hne r (by simp [hr])) (hp r (by simp [hr]))
  rw [hh, hr, if_neg]
  simp only [List.any_map, Bool.not_eq_true, List.any_eq_false, Function.comp]
  intro r hr
  simp [hF.rect r hr]

/-! ## Numbers -/

theorem digit_digitChar : ∀ d : Fin 10, digit (digitChar d) = some d.val := by decide

theorem natOf_nil : natOf [] = 0 := rfl

theorem natOf_append (a b : List (Fin 10)) : natOf (a ++ b) = natOf a * 10 ^ b.length + natOf b := by
  unfold natOf
  rw [List.reverse_append, List.map_append, Nat.ofDigits_append]
  simp; ring

theorem natOf_snoc (a : List (Fin 10)) (d : Fin 10) : natOf (a ++ [d]) = 10 * natOf a + d.val := by
  rw [natOf_append]; simp [natOf, Nat.ofDigits]; ring

/-- stops a run of digits -/
def NoDigit (l : List Char) : Prop := ∀ c, l.head? = some c → digit c = none

theorem digits_run (ds : List (Fin 10)) (rest : List Char) (hr : NoDigit rest) (v n : Nat) :
    digits (ds.map digitChar ++ rest) (v, n) = ((v * 10 ^ ds.length + natOf ds, n + ds.length), rest) := by
  induction ds generalizing v n with
  | nil =>
    cases rest with
    | nil => simp [digits, natOf_nil]
    | cons c cs =>
      have := hr c rfl
      simp [digits, natOf_nil, this]
  | cons d ds ih =>
    rw [List.map_cons, List.cons_append, digits, digit_digitChar]
    dsimp only
    rw [ih]
    have : natOf (d :: ds) = d.val * 10 ^ ds.length + natOf ds := by
      rw [show d :: ds = [d] ++ ds from rfl, natOf_append]; simp [natOf, Nat.ofDigits]
    rw [this, List.length_cons]
    congr 2
    · ring
    · omega

theorem sign_text (s : Sign) (l : List Char) (h : ∀ c, l.head? = some c → c ≠ '+' ∧ c ≠ '-') :
    sign (s.text ++ l) = (decide (s.val < 0), l) := by
  cases s with
  | plus => rfl
  | minus => rfl
  | none =>
    cases l with
    | nil => rfl
    | cons c cs =>
      obtain ⟨h1, h2⟩ := h c rfl
      show sign (c :: cs) = _
      unfold sign
      split
      · rename_i e; simp at e; exact absurd e.1 h2
      · rename_i e; simp at e; exact absurd e.1 h1
      · rfl

theorem head_digits (ds : List (Fin 10)) (rest : List Char) (h : ds ≠ []) (c : Char)
    (hc : (ds.map digitChar ++ rest).head? = some c) : ∃ d : Fin 10, c = digitChar d := by
  cases ds with
  | nil => exact absurd rfl h
  | cons d ds => exact ⟨d, by simpa using hc.symm⟩

theorem digitChar_sign : ∀ d : Fin 10, digitChar d ≠ '+' ∧ digitChar d ≠ '-' := by decide

theorem exponent_text (e : Exponent) (he : e.digits ≠ []) : exponent e.text = some e.val := by
  unfold Exponent.text exponent
  dsimp only
  have h1 : ((if e.capital then 'E' else 'e') = 'e' || (if e.capital then 'E' else 'e') = 'E') = true := by
    cases e.capital <;> decide
  rw [if_pos h1]
  have hs : sign (e.sign.text ++ e.digits.map digitChar) = (decide (e.sign.val < 0), e.digits.map digitChar) := by
    apply sign_text
    intro c hc
    obtain ⟨d, rfl⟩ := head_digits e.digits [] he c (by simpa using hc)
    exact digitChar_sign d
  rw [hs]
  dsimp only
  have hd := digits_run e.digits [] (by intro c hc; cases hc) 0 0
  rw [List.append_nil] at hd
  rw [hd]
  have hn : e.digits.length ≠ 0 := by simpa using he
  simp only [Nat.zero_mul, Nat.zero_add, List.isEmpty_nil, Bool.not_true, Bool.or_false, decide_eq_true_eq, hn, if_false]
  unfold Exponent.val
  cases e.sign <;> simp [Sign.val]

theorem pow10_eq (e : Int) : pow10 e = (10 : ℚ) ^ e := by
  unfold pow10
  split_ifs with h
  · obtain ⟨n, hn⟩ := Int.eq_ofNat_of_zero_le (a := -e) (by omega)
    have he : e = -(n : Int) := by omega
    rw [he]; simp
  · obtain ⟨n, rfl⟩ := Int.eq_ofNat_of_zero_le (a := e) (by omega)
    simp

theorem noDigit_exp (x : Option Exponent) : NoDigit (expText x) := by
  cases x with
  | none => intro c hc; cases hc
  | some e =>
    intro c hc
    simp only [expText, Exponent.text, List.head?_cons, Option.some.injEq] at hc
    subst hc; cases e.capital <;> decide

theorem unsigned_text (D : Decimal) (h : D.Valid) :
    unsigned (D.whole.map digitChar ++ (fracText D.frac ++
      expText D.exp)) =
    some ((natOf (D.whole ++ D.frac.getD []) : ℚ) *
      (10 : ℚ) ^ (expVal D.exp - ((D.frac.getD []).length : Int))) := by
  obtain ⟨h1, h2⟩ := h
  have hexp : exponent (expText D.exp) =
      some (expVal D.exp) := by
    cases hx : D.exp with
    | none => rfl
    | some e => exact exponent_text e (h2 e hx)
  have hnd := noDigit_exp D.exp
  have hhead : ∀ c, (expText D.exp).head? = some c → c ≠ '.' := by
    intro c hc
    cases hx : D.exp with
    | none => rw [hx] at hc; cases hc
    | some e =>
      rw [hx] at hc
      simp only [expText, Exponent.text, List.head?_cons, Option.some.injEq] at hc
      subst hc; cases e.capital <;> decide
  generalize (expText D.exp) = X at *
  generalize (expVal D.exp) = x at *
  unfold unsigned
  cases hf : D.frac with
  | none =>
    rw [hf] at h1
    dsimp only [fracText]
    rw [List.nil_append, digits_run _ _ hnd]
    dsimp only
    have hlen : D.whole.length ≠ 0 := by rcases h1 with h1 | h1 <;> simp at h1 ⊢; exact h1
    have hfr : ∀ v : Nat, fraction v X = ((v, 0), X) := by
      intro v
      unfold fraction
      split
      · rename_i r; exact absurd rfl (hhead '.' rfl)
      · rfl
    rw [hfr]
    dsimp only
    rw [if_neg (by omega), hexp, Option.map_some, pow10_eq]
    simp
  | some f =>
    rw [hf] at h1
    dsimp only [fracText]
    rw [List.cons_append, digits_run _ _ (by intro c hc; simp at hc; subst hc; decide)]
    dsimp only
    rw [show ∀ v, fraction v ('.' :: (f.map digitChar ++ X)) = digits (f.map digitChar ++ X) (v, 0) from fun _ => rfl,
      digits_run _ _ hnd]
    dsimp only
    have hlen : 0 + D.whole.length + (0 + f.length) ≠ 0 := by
      rcases h1 with h1 | h1
      · have : D.whole.length ≠ 0 := by simpa using h1
        omega
      · have : f.length ≠ 0 := by simpa using h1
        omega
    rw [if_neg hlen, hexp, Option.map_some, pow10_eq]
    simp [natOf_append]

/-- characters of a decimal number without blanks -/
def coreChar (c : Char) : Bool := (digit c).isSome || c == '+' || c == '-' || c == '.' || c == 'e' || c == 'E'

/-- the written number without blanks -/
def coreText (D : Decimal) : List Char :=
  D.sign.text ++ (D.whole.map digitChar ++
    (fracText D.frac ++
      expText D.exp))

theorem core_digits (ds : List (Fin 10)) : (ds.map digitChar).all coreChar = true := by
  rw [List.all_eq_true]
  intro c hc
  obtain ⟨d, _, rfl⟩ := List.mem_map.mp hc
  unfold coreChar; rw [digit_digitChar]; rfl

theorem core_sign (s : Sign) : s.text.all coreChar = true := by cases s <;> decide

theorem core_text (D : Decimal) : (coreText D).all coreChar = true := by
  unfold coreText
  rw [List.all_append, List.all_append, List.all_append, core_sign, core_digits]
  have h1 : (fracText D.frac).all coreChar = true := by
    cases D.frac with
    | none => rfl
    | some f => dsimp only [fracText]; rw [List.all_cons, core_digits]; decide
  have h2 : (expText D.exp).all coreChar = true := by
    cases D.exp with
    | none => rfl
    | some e =>
      dsimp only [expText, Exponent.text]
      rw [List.all_cons, List.all_append, core_digits, core_sign]
      cases e.capital <;> decide
  rw [h1, h2]; rfl

theorem core_ne_nil (D : Decimal) (h : D.Valid) : coreText D ≠ [] := by
  unfold coreText
  intro e
  simp only [List.append_eq_nil_iff, List.map_eq_nil_iff] at e
  rcases h.1 with h1 | h1
  · exact h1 e.2.1
  · cases hf : D.frac with
    | none => rw [hf] at h1; exact h1 rfl
    | some f => rw [hf] at e; exact absurd e.2.2.1 (by simp [fracText])

theorem coreChar_not_blank {c : Char} (h : coreChar c = true) : isBlank c = false := by
  unfold isBlank
  rw [Bool.or_eq_false_iff, beq_eq_false_iff_ne, beq_eq_false_iff_ne]
  constructor <;> (rintro rfl; revert h; decide)

theorem dropWhile_replicate (n : Nat) (l : List Char) :
    (List.replicate n ' ' ++ l).dropWhile isBlank = l.dropWhile isBlank := by
  induction n with
  | zero => rfl
  | succ n ih => rw [List.replicate_succ, List.cons_append, List.dropWhile_cons, if_pos (by decide), ih]

theorem dropWhile_core {l : List Char} (h : l.all coreChar = true) (hne : l ≠ []) (r : List Char) :
    (l ++ r).dropWhile isBlank = l ++ r := by
  cases l with
  | nil => exact absurd rfl hne
  | cons c cs =>
    rw [List.all_cons, Bool.and_eq_true] at h
    rw [List.cons_append, List.dropWhile_cons, if_neg (by rw [coreChar_not_blank h.1]; simp)]

theorem trim_text (D : Decimal) (h : D.Valid) : trim D.text = coreText D := by
  have hc := core_text D
  have hne := core_ne_nil D h
  have ht : D.text = List.replicate D.before ' ' ++ (coreText D ++ List.replicate D.after ' ') := by
    unfold Decimal.text coreText; simp only [List.append_assoc]
  rw [ht]
  unfold trim
  rw [dropWhile_replicate, dropWhile_core hc hne, List.reverse_append, List.reverse_replicate, dropWhile_replicate]
  have := dropWhile_core (l := (coreText D).reverse) (by rw [List.all_reverse]; exact hc) (by simpa using hne) []
  rw [List.append_nil] at this
  rw [this, List.reverse_reverse]

theorem parseNum_text (D : Decimal) (h : D.Valid) : parseNum D.text = some D.value := by
  unfold parseNum
  rw [trim_text D h]
  unfold coreText
  rw [sign_text]
  · dsimp only
    rw [unsigned_text D h]
    show (some _ : Option Rat) = _
    unfold Decimal.value
    congr 1
    cases D.sign <;> simp [Sign.val]
  · intro c hc
    by_cases hw : D.whole = []
    · rw [hw] at hc
      cases hf : D.frac with
      | none => rcases h.1 with h1 | h1 <;> simp_all
      | some f => rw [hf] at hc; simp [fracText] at hc; subst hc; decide
    · obtain ⟨d, rfl⟩ := head_digits _ _ hw c hc
      exact digitChar_sign d

/-- no missing-value marker is a number -/
theorem na_not_number : naTexts.all (fun l => l.isEmpty || l.any (fun c => !coreChar c && !isBlank c)) = true := by decide

theorem field_text (D : Decimal) (h : D.Valid) : field D.text = some (some D.value) := by
  unfold field
  rw [if_neg, parseNum_text D h]
  intro hm
  have := List.all_eq_true.mp na_not_number _ hm
  rw [Bool.or_eq_true] at this
  rcases this with h1 | h1
  · have he : D.text = [] := by simpa using h1
    have := trim_text D h
    rw [he] at this
    exact core_ne_nil D h this.symm
  · rw [List.any_eq_true] at h1
    obtain ⟨c, hc, hcc⟩ := h1
    simp only [Bool.and_eq_true, Bool.not_eq_true'] at hcc
    have hcore := core_text D
    rw [List.all_eq_true] at hcore
    have ht : D.text = List.replicate D.before ' ' ++ (coreText D ++ List.replicate D.after ' ') := by
      unfold Decimal.text coreText; simp only [List.append_assoc]
    rw [ht, List.mem_append, List.mem_append] at hc
    rcases hc with hc | hc | hc
    · have := List.eq_of_mem_replicate hc; subst this; exact absurd hcc.2 (by decide)
    · rw [hcore c hc] at hcc; simp at hcc
    · have := List.eq_of_mem_replicate hc; subst this; exact absurd hcc.2 (by decide)

theorem field_denotes {s : String} {q : ℚ} (h : Denotes s q) : field s.toList = some (some q) := by
  obtain ⟨D, h1, h2, rfl⟩ := h
  rw [h2]; exact field_text D h1

/-! ## Columns -/

theorem column_index {F : Sheet} {label : String} {i : Nat} (h : F.Column label i) :
    (F.header.map String.toList).idxOf? label.toList = some i := by
  obtain ⟨_, h1, h2⟩ := h
  obtain ⟨hi, he⟩ := List.getElem?_eq_some_iff.mp h1
  unfold List.idxOf?
  rw [List.findIdx?_eq_some_iff_getElem]
  refine ⟨by simpa using hi, by simp [he], ?_⟩
  intro j hj
  have hjl : j < F.header.length := by omega
  have := h2 j hj
  rw [List.getElem?_eq_getElem hjl] at this
  have hne : F.header[j] ≠ label := fun e => this (by rw [e])
  simp only [List.getElem_map, Bool.not_eq_true, beq_eq_false_iff_ne]
  exact fun e => hne (String.toList_injective e)

theorem column_read {F : Sheet} {label : String} {i : Nat} (h : F.Column label i) (vs : List ℚ)
    (hv : List.Forall₂ (fun r v => Denotes (r.getD i "") v) F.rows vs) :
    rawColumn ⟨F.header.map String.toList, F.rows.map (fun r => r.map String.toList)⟩ label = .ok (vs.map some) := by
  unfold rawColumn
  dsimp only
  rw [column_index h]
  obtain ⟨n, rfl⟩ : ∃ n, i = n + 1 := ⟨i - 1, by have := h.1; omega⟩
  have : (F.rows.map (fun r => r.map String.toList)).mapM (fun r => field (r.getD (n + 1) [])) =
      some (vs.map some) := by
    clear h
    generalize F.rows = R at hv ⊢
    induction hv with
    | nil => rfl
    | @cons r v R vs h1 _ ih =>
      rw [List.map_cons, List.mapM_cons, ih]
      have e : (r.map String.toList).getD (n + 1) [] = (r.getD (n + 1) "").toList := by
        simp only [List.getD_eq_getElem?_getD, List.getElem?_map]
        cases r[n + 1]? <;> rfl
      rw [e, field_denotes h1]; rfl
  simp only [this]

/-- what a file that holds numbers is read as -/
theorem getBetaSetF_holds {α : Type} [PyFloat α] {fs : Files} {p text : String} {ns : List Numbers} (factor : α)
    (hf : fs p = some text) (h : Holds text ns) :
    getBetaSetF fs p factor =
      .ok (ns.map (fun n => ⟨PyFloat.lit n.m / factor, PyFloat.lit n.a / factor, PyFloat.lit n.b / factor⟩)) := by
  obtain ⟨F, eol, im, ia, ib, hF, he, rfl, hm, ha, hb, hr⟩ := h
  have cm := column_read hm (ns.map (·.m)) (by
    rw [List.forall₂_map_right_iff]; exact hr.imp (fun _ _ h => h.1))
  have ca := column_read ha (ns.map (·.a)) (by
    rw [List.forall₂_map_right_iff]; exact hr.imp (fun _ _ h => h.2.1))
  have cb := column_read hb (ns.map (·.b)) (by
    rw [List.forall₂_map_right_iff]; exact hr.imp (fun _ _ h => h.2.2))
  have cl : ∀ (t : Table) l v, rawColumn t l = .ok v → columnOf t l factor = .ok (v.map (fun v => decVal v / factor)) := by
    intro t l v hv; unfold columnOf; rw [hv]; rfl
  unfold getBetaSetF
  rw [hf]
  show (readCsv (F.text eol) >>= _) = _
  rw [parse_sheet hF he]
  show (columnOf _ "m" factor >>= _) = _
  rw [cl _ _ _ cm, cl _ _ _ ca, cl _ _ _ cb]
  show Except.ok (toRows _ _ _) = _
  simp only [List.map_map]
  rw [toRows_map]; rfl

end Csu.Csv
