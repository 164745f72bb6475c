import Verif.Spec.Decimal
import Mathlib.Tactic.Linarith
import Mathlib.Tactic.FieldSimp
import Mathlib.Tactic.IntervalCases
import Mathlib.Tactic.Ring
import Mathlib.Algebra.Order.Field.Rat
/-
Reading decimal notation back.
-/
namespace Alta

theorem digitChar_spec (d : ℕ) (h : d < 10) :
    isDigit (digitChar d) = true ∧ digitVal (digitChar d) = d ∧ isSpace (digitChar d) = false ∧
    digitChar d ≠ '-' ∧ digitChar d ≠ '+' ∧ digitChar d ≠ '.' ∧ digitChar d ≠ 'e' ∧
    digitChar d ≠ 'E' ∧ digitChar d ≠ ',' ∧ digitChar d ≠ '\r' ∧ digitChar d ≠ '\n' := by
  interval_cases d <;> decide

theorem digitsVal_append (s : Str) (c : Char) : digitsVal (s ++ [c]) = 10 * digitsVal s + digitVal c := by
  simp [digitsVal, List.foldl_append]

theorem showNat_ne_nil (n : ℕ) : showNat n ≠ [] := by
  rw [showNat]; split <;> simp

theorem showNat_digits (n : ℕ) : ∀ c ∈ showNat n, ∃ d < 10, c = digitChar d := by
  induction n using Nat.strong_induction_on with
  | _ n ih =>
    rw [showNat]
    split
    · rename_i h
      intro c hc; simp at hc; exact ⟨n, h, hc⟩
    · rename_i h
      intro c hc
      rcases List.mem_append.1 hc with hc | hc
      · exact ih _ (by omega) c hc
      · simp at hc; exact ⟨_, Nat.mod_lt _ (by norm_num), hc⟩

theorem digitsVal_showNat (n : ℕ) : digitsVal (showNat n) = n := by
  induction n using Nat.strong_induction_on with
  | _ n ih =>
    rw [showNat]
    split
    · rename_i h
      simp [digitsVal, (digitChar_spec n h).2.1]
    · rename_i h
      rw [digitsVal_append, ih _ (by omega), (digitChar_spec _ (Nat.mod_lt _ (by norm_num))).2.1]
      omega

/-- a text does not start with a digit -/
def NoDigitAhead (s : Str) : Prop := ∀ c r, s = c :: r → isDigit c = false

theorem takeWhile_append_stop {p : Char → Bool} (a b : Str) (ha : ∀ c ∈ a, p c = true)
    (hb : ∀ c r, b = c :: r → p c = false) : (a ++ b).takeWhile p = a ∧ (a ++ b).dropWhile p = b := by
  induction a with
  | nil =>
    cases b with
    | nil => simp
    | cons c r => simp [hb c r rfl]
  | cons c a ih =>
    have h1 := ih (fun c hc => ha c (by simp [hc]))
    simp [ha c (by simp), h1.1, h1.2]

theorem showNat_all_digit (n : ℕ) : ∀ c ∈ showNat n, isDigit c = true := by
  intro c hc
  obtain ⟨d, hd, rfl⟩ := showNat_digits n c hc
  exact (digitChar_spec d hd).1

theorem showNat_head (n : ℕ) : ∃ d < 10, ∃ r, showNat n = digitChar d :: r := by
  have h := showNat_digits n
  cases hs : showNat n with
  | nil => exact absurd hs (showNat_ne_nil n)
  | cons c r =>
    rw [hs] at h
    obtain ⟨d, hd, rfl⟩ := h c (by simp)
    exact ⟨d, hd, r, rfl⟩

theorem dropWhile_spaces (ws s : Str) (hw : ∀ c ∈ ws, isSpace c = true)
    (hs : ∀ c r, s = c :: r → isSpace c = false) : (ws ++ s).dropWhile isSpace = s :=
  (takeWhile_append_stop ws s hw hs).2

theorem takeSign_showInt (z : ℤ) (rest : Str) :
    takeSign (showInt z ++ rest) = (decide (z < 0), showNat z.natAbs ++ rest) := by
  unfold showInt
  obtain ⟨d, hd, r, hr⟩ := showNat_head z.natAbs
  have hs := digitChar_spec d hd
  split
  · rename_i h; simp [takeSign, h]
  · rename_i h
    rw [hr]
    simp only [List.cons_append, h, decide_false]
    unfold takeSign
    split
    · rename_i heq; simp at heq; exact absurd heq.1 hs.2.2.2.1
    · rename_i heq; simp at heq; exact absurd heq.1 hs.2.2.2.2.1
    · rfl

theorem showInt_head (z : ℤ) : ∃ c r, showInt z = c :: r ∧ isSpace c = false := by
  unfold showInt
  split
  · exact ⟨_, _, rfl, by decide⟩
  · obtain ⟨d, hd, r, hr⟩ := showNat_head z.natAbs
    exact ⟨_, _, hr, (digitChar_spec d hd).2.2.1⟩

/-- `atoi` reads a written integer, after white space and before a non digit -/
theorem atoi_showInt (ws rest : Str) (z : ℤ) (hw : ∀ c ∈ ws, isSpace c = true)
    (hr : NoDigitAhead rest) : atoi (ws ++ (showInt z ++ rest)) = z := by
  obtain ⟨c, r, hc, hs⟩ := showInt_head z
  unfold atoi
  rw [dropWhile_spaces ws _ hw (by intro c' r' h; rw [hc] at h; simp at h; rw [← h.1]; exact hs),
    takeSign_showInt]
  have := (takeWhile_append_stop (showNat z.natAbs) rest (showNat_all_digit _) hr).1
  simp only [this, digitsVal_showNat]
  by_cases h : z < 0
  · simp only [h, decide_true, if_true]; omega
  · simp only [h, decide_false, Bool.false_eq_true, if_false]; omega

theorem showDigits_all (l : List (Fin 10)) : ∀ c ∈ showDigits l, ∃ d < 10, c = digitChar d := by
  intro c hc
  simp only [showDigits, List.mem_map] at hc
  obtain ⟨d, -, rfl⟩ := hc
  exact ⟨d, d.2, rfl⟩

theorem digitsVal_showDigits_aux (l : List (Fin 10)) (n : ℕ) :
    (showDigits l).foldl (fun n c => 10 * n + digitVal c) n = l.foldl (fun (n : ℕ) (d : Fin 10) => 10 * n + d.val) n := by
  induction l generalizing n with
  | nil => rfl
  | cons d l ih =>
    simp only [showDigits, List.map_cons, List.foldl_cons] at *
    rw [(digitChar_spec d d.2).2.1, ih]

theorem digitsVal_showDigits (l : List (Fin 10)) : digitsVal (showDigits l) = digitsNum l :=
  digitsVal_showDigits_aux l 0

theorem foldl_digits_shift (l : List (Fin 10)) (n : ℕ) :
    l.foldl (fun (n : ℕ) (d : Fin 10) => 10 * n + d.val) n = n * 10 ^ l.length + digitsNum l := by
  induction l generalizing n with
  | nil => simp [digitsNum]
  | cons d l ih =>
    have h := ih (10 * 0 + d)
    simp only [List.foldl_cons, digitsNum, List.length_cons] at *
    rw [ih, h]; ring

theorem digitsNum_append (a b : List (Fin 10)) :
    digitsNum (a ++ b) = digitsNum a * 10 ^ b.length + digitsNum b := by
  have : digitsNum (a ++ b) = b.foldl (fun (n : ℕ) (d : Fin 10) => 10 * n + d.val) (digitsNum a) := by
    simp [digitsNum, List.foldl_append]
  rw [this, foldl_digits_shift]

/-- the text does not continue a number -/
def NumberEnds (s : Str) : Prop :=
  ∀ c r, s = c :: r → isDigit c = false ∧ c ≠ '.' ∧ c ≠ 'e' ∧ c ≠ 'E'

/-- the text of the exponent -/
def expText (e : Option ℤ) : Str := match e with | none => [] | some e => 'e' :: showInt e

theorem expText_head (e : Option ℤ) (rest : Str) (hr : NumberEnds rest) :
    ∀ c r, expText e ++ rest = c :: r → isDigit c = false ∧ c ≠ '.' := by
  intro c r h
  cases e with
  | none => exact ⟨(hr c r h).1, (hr c r h).2.1⟩
  | some e =>
    simp only [expText, List.cons_append, List.cons.injEq] at h
    rw [← h.1]; decide

/-- the exponent part of `strtod` -/
def readExp (r2 : Str) : ℚ × Str := match r2 with
      | c :: q =>
        if c = 'e' ∨ c = 'E' then
          let (en, q1) := takeSign q
          let ds := q1.takeWhile isDigit
          if ds = [] then (1, r2)
          else (if en then 1 / 10 ^ digitsVal ds else 10 ^ digitsVal ds, q1.dropWhile isDigit)
        else (1, r2)
      | [] => (1, r2)

theorem readExp_expText (e : Option ℤ) (rest : Str) (hr : NumberEnds rest) :
    readExp (expText e ++ rest) = ((10 : ℚ) ^ (e.getD 0), rest) := by
  cases e with
  | none =>
    simp only [expText, List.nil_append, Option.getD_none, zpow_zero]
    cases rest with
    | nil => rfl
    | cons c q =>
      have := hr c q rfl
      simp [readExp, this.2.2.1, this.2.2.2]
  | some e =>
    simp only [expText, List.cons_append, Option.getD_some, readExp, true_or, if_true,
      takeSign_showInt]
    have hs := takeWhile_append_stop (showNat e.natAbs) rest (showNat_all_digit _)
      (fun c r h => (hr c r h).1)
    rw [hs.1, hs.2, if_neg (showNat_ne_nil _), digitsVal_showNat]
    congr 1
    by_cases h : e < 0
    · simp only [h, decide_true, if_true]
      have : e = -(e.natAbs : ℤ) := by omega
      conv_rhs => rw [this]
      rw [zpow_neg, zpow_natCast, one_div]
    · simp only [h, decide_false, Bool.false_eq_true, if_false]
      have : e = (e.natAbs : ℤ) := by omega
      conv_rhs => rw [this]
      rw [zpow_natCast]

/-- `strtod` reads the text of a decimal number, after white space and before
    something that cannot continue it -/
theorem strtod_text (ws rest : Str) (d : Decimal) (hw : ∀ c ∈ ws, isSpace c = true)
    (hd : d.ip ≠ [] ∨ d.fp ≠ []) (hr : NumberEnds rest) :
    strtod (ws ++ (d.text ++ rest)) = some (d.value, rest) := by
  have hip := showDigits_all d.ip
  have hfp := showDigits_all d.fp
  have dig : ∀ l : List (Fin 10), ∀ c ∈ showDigits l, isDigit c = true := by
    intro l c hc
    obtain ⟨k, hk, rfl⟩ := showDigits_all l c hc
    exact (digitChar_spec k hk).1
  -- the text after the sign
  obtain ⟨body, hbody⟩ : ∃ b, b = showDigits d.ip ++
    ((if d.fp = [] then [] else '.' :: showDigits d.fp) ++ (expText d.exp ++ rest)) := ⟨_, rfl⟩
  have htext : d.text ++ rest = (if d.neg then ['-'] else []) ++ body := by
    rw [hbody]; unfold Decimal.text expText; simp only [List.append_assoc]; rfl
  have hbh : ∀ c r, body = c :: r → isSpace c = false ∧ c ≠ '-' ∧ c ≠ '+' := by
    intro c r h
    rw [hbody] at h
    by_cases h1 : d.ip = []
    · have h2 := hd.resolve_left (fun h' => h' h1)
      simp only [h1, showDigits, List.map_nil, List.nil_append, if_neg h2, List.cons_append,
        List.cons.injEq] at h
      rw [← h.1]; decide
    · cases hp : d.ip with
      | nil => exact absurd hp h1
      | cons k l =>
        simp only [hp, showDigits, List.map_cons, List.cons_append, List.cons.injEq] at h
        rw [← h.1]
        have := digitChar_spec k.val k.2
        exact ⟨this.2.2.1, this.2.2.2.1, this.2.2.2.2.1⟩
  have hsign : takeSign ((if d.neg then ['-'] else []) ++ body) = (d.neg, body) := by
    cases d.neg with
    | true => rfl
    | false =>
      simp only [Bool.false_eq_true, if_false, List.nil_append]
      unfold takeSign
      split
      · exact absurd rfl (hbh _ _ rfl).2.1
      · exact absurd rfl (hbh _ _ rfl).2.2
      · rfl
  have hspace : ∀ c r, (if d.neg then ['-'] else []) ++ body = c :: r → isSpace c = false := by
    intro c r h
    cases hn : d.neg with
    | true => simp [hn] at h; rw [← h.1]; decide
    | false => simp [hn] at h; exact (hbh c r h).1
  have heh := expText_head d.exp rest hr
  have htail : ∀ c r, ((if d.fp = [] then [] else '.' :: showDigits d.fp) ++ (expText d.exp ++ rest))
      = c :: r → isDigit c = false := by
    intro c r h
    split at h
    · exact (heh c r h).1
    · simp at h; rw [← h.1]; decide
  have s1 := takeWhile_append_stop (showDigits d.ip) _ (dig d.ip) htail
  have s2 := takeWhile_append_stop (showDigits d.fp) _ (dig d.fp) (fun c r h => (heh c r h).1)
  rw [← hbody] at s1
  have hexp := readExp_expText d.exp rest hr
  have hne : ¬ (showDigits d.ip = [] ∧ showDigits d.fp = []) := by
    rintro ⟨a, b⟩
    simp only [showDigits, List.map_eq_nil_iff] at a b
    exact hd.elim (fun h => h a) (fun h => h b)
  have hdot : (match body.dropWhile isDigit with
    | '.' :: q => (q.takeWhile isDigit, q.dropWhile isDigit)
    | _ => ([], body.dropWhile isDigit)) = (showDigits d.fp, expText d.exp ++ rest) := by
    rw [s1.2]
    by_cases hf : d.fp = []
    · simp only [hf, if_true, List.nil_append, showDigits, List.map_nil]
      split
      · rename_i q heq
        exact absurd rfl (heh '.' q heq).2
      · rfl
    · simp only [if_neg hf, List.cons_append, s2.1, s2.2]
  have hval : (if d.neg then
      -(((digitsVal (showDigits d.ip ++ showDigits d.fp) : ℕ) : ℚ) / 10 ^ (showDigits d.fp).length * 10 ^ (d.exp.getD 0))
      else ((digitsVal (showDigits d.ip ++ showDigits d.fp) : ℕ) : ℚ) / 10 ^ (showDigits d.fp).length * 10 ^ (d.exp.getD 0))
      = d.value := by
    have h1 : showDigits d.ip ++ showDigits d.fp = showDigits (d.ip ++ d.fp) := by
      simp [showDigits]
    have h2 : (showDigits d.fp).length = d.fp.length := by simp [showDigits]
    rw [h1, digitsVal_showDigits, digitsNum_append, h2]
    have h3 : (10 : ℚ) ^ d.fp.length ≠ 0 := by positivity
    unfold Decimal.value
    push_cast
    rw [add_div, mul_div_cancel_right₀ _ h3]
  have key : strtod (ws ++ (d.text ++ rest)) =
      (fun (p : Bool × Str) =>
        (fun (q : Str × Str) =>
          if p.2.takeWhile isDigit = [] ∧ q.1 = [] then none else
          (fun (e : ℚ × Str) =>
            some ((if p.1 then -(((digitsVal (p.2.takeWhile isDigit ++ q.1) : ℕ) : ℚ) / 10 ^ q.1.length * e.1)
              else ((digitsVal (p.2.takeWhile isDigit ++ q.1) : ℕ) : ℚ) / 10 ^ q.1.length * e.1), e.2))
            (readExp q.2))
          (match p.2.dropWhile isDigit with
            | '.' :: q => (q.takeWhile isDigit, q.dropWhile isDigit)
            | _ => ([], p.2.dropWhile isDigit)))
        (takeSign ((ws ++ (d.text ++ rest)).dropWhile isSpace)) := rfl
  rw [key, htext, dropWhile_spaces ws _ hw hspace, hsign]
  simp only [hdot, hexp, s1.1, if_neg hne, hval]

end Alta
